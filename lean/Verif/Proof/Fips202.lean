import Verif.Proof.Keccak
import Verif.Proof.Cbd
/-!
# Proof: the sponge functions of `fips202.c`
-/
namespace Saber
open Spec Keccak

/-! ### Bit strings and byte strings -/

@[simp] theorem length_bitsOfBytes (bs : List Byte) : (bitsOfBytes bs).length = 8 * bs.length := by simp [bitsOfBytes]

theorem bitAt_ge (bs : List Byte) (n : Nat) (h : 8 * bs.length ≤ n) : bitAt bs n = false := by
  unfold bitAt
  rw [List.getD_eq_default _ _ (by omega)]; simp

theorem getD_bitsOfBytes (bs : List Byte) (n : Nat) : (bitsOfBytes bs).getD n false = bitAt bs n := by
  by_cases h : n < 8 * bs.length
  · simp [bitsOfBytes, h]
  · rw [bitAt_ge _ _ (by omega), List.getD_eq_default _ _ (by simp; omega)]

theorem getD_take {α : Type} (l : List α) (k n : Nat) (d : α) (h : n < k) : (l.take k).getD n d = l.getD n d := by
  simp [h]

theorem bitsOfBytes_drop (bs : List Byte) (k : Nat) : bitsOfBytes (bs.drop k) = (bitsOfBytes bs).drop (8 * k) := by
  apply ext_getD false
  · simp; omega
  · intro i _
    rw [getD_bitsOfBytes, getD_drop, getD_bitsOfBytes, bitAt_drop]

theorem bitsOfBytes_take (bs : List Byte) (k : Nat) : bitsOfBytes (bs.take k) = (bitsOfBytes bs).take (8 * k) := by
  apply ext_getD false
  · simp only [length_bitsOfBytes, List.length_take]; omega
  · intro i hi
    simp only [length_bitsOfBytes, List.length_take] at hi
    rw [getD_bitsOfBytes, getD_take _ _ _ _ (by omega), getD_bitsOfBytes, bitAt, bitAt, getD_take _ _ _ _ (by omega)]

theorem length_bytesOfBits (S : List Bool) : (bytesOfBits S).length = S.length / 8 := by simp [bytesOfBits]

theorem byte_eq_natOfBits (b : Byte) : b = BitVec.ofNat 8 (natOfBits 8 fun j => b.getLsbD j) := by
  apply BitVec.eq_of_getLsbD_eq
  intro j hj
  rw [BitVec.getLsbD_ofNat, natOfBits_testBit]
  simp [hj]

/-- A byte of a byte string given by its bits. -/
theorem bytesOfBits_getD (S : List Bool) (m j : Nat) (hm : m < S.length / 8) (hj : j < 8) :
    ((bytesOfBits S).getD m 0).getLsbD j = S.getD (8 * m + j) false := by
  rw [bytesOfBits, getD_map_range _ _ _ _ hm, BitVec.getLsbD_ofNat, natOfBits_testBit]
  simp [hj]

theorem bytes_ext {a b : List Byte} (hl : a.length = b.length)
    (h : ∀ m < a.length, ∀ j < 8, (a.getD m 0).getLsbD j = (b.getD m 0).getLsbD j) : a = b := by
  apply ext_getD 0 hl
  intro m hm
  exact BitVec.eq_of_getLsbD_eq fun j hj => h m hm j hj

theorem bytesOfBits_append (A B : List Bool) (h : A.length % 8 = 0) :
    bytesOfBits (A ++ B) = bytesOfBits A ++ bytesOfBits B := by
  apply bytes_ext
  · simp only [length_bytesOfBits, List.length_append]; omega
  · intro m hm j hj
    simp only [length_bytesOfBits, List.length_append] at hm
    rw [bytesOfBits_getD _ _ _ (by simp only [List.length_append]; omega) hj]
    by_cases hA : m < A.length / 8
    · rw [List.getD_append (bytesOfBits A) _ _ _ (by rw [length_bytesOfBits]; omega), bytesOfBits_getD _ _ _ hA hj,
        List.getD_append _ _ _ _ (by omega)]
    · rw [List.getD_append_right (bytesOfBits A) _ _ _ (by rw [length_bytesOfBits]; omega), length_bytesOfBits,
        bytesOfBits_getD _ _ _ (by omega) hj, List.getD_append_right _ _ _ _ (by omega)]
      congr 1; omega

theorem bytesOfBits_take (S : List Bool) (n : Nat) : bytesOfBits (S.take (8 * n)) = (bytesOfBits S).take n := by
  apply bytes_ext
  · simp only [length_bytesOfBits, List.length_take]; omega
  · intro m hm j hj
    simp only [length_bytesOfBits, List.length_take] at hm
    rw [bytesOfBits_getD _ _ _ (by simp only [List.length_take]; omega) hj, getD_take _ _ _ _ (by omega),
      getD_take _ _ _ _ (by omega), bytesOfBits_getD _ _ _ (by omega) hj]

theorem bytesOfBits_bitsOfBytes (bs : List Byte) : bytesOfBits (bitsOfBytes bs) = bs := by
  apply bytes_ext
  · simp only [length_bytesOfBits, length_bitsOfBytes]; omega
  · intro m hm j hj
    simp only [length_bytesOfBits, length_bitsOfBytes] at hm
    rw [bytesOfBits_getD _ _ _ (by rw [length_bitsOfBytes]; omega) hj, getD_bitsOfBytes, bitAt,
      show (8 * m + j) / 8 = m by omega, show (8 * m + j) % 8 = j by omega]

/-! ### Words -/

theorem load64_ok (xs : List Byte) (off : Nat) (h : off + 8 ≤ xs.length) :
    Ok (load64 xs off) fun r => ∀ k, k < 64 → r.getLsbD k = bitAt xs (8 * off + k) := by
  unfold load64
  have key := loop_inv (n := 8) (s := (0 : BitVec 64))
    (body := fun i r => do
      let x ← rd xs (off + i)
      pure (r ||| (x.setWidth 64 <<< (8 * i))))
    (fun i (r : BitVec 64) => ∀ k, k < 64 → r.getLsbD k = (decide (k < 8 * i) && bitAt xs (8 * off + k))) ?_ ?_
  · refine key.mono fun r hr k hk => ?_
    rw [hr k hk]; simp; omega
  · intro k hk; simp
  · intro i r hi hr
    rw [rd_ok 0 (by omega), ok_bind]
    refine Ok.pure ?_
    intro k hk
    rw [BitVec.getLsbD_or, hr k hk, BitVec.getLsbD_shiftLeft, BitVec.getLsbD_setWidth]
    by_cases h1 : k < 8 * i
    · have : k < 8 * (i + 1) := by omega
      simp [h1, this]
    · by_cases h2 : k < 8 * (i + 1)
      · simp only [h1, h2, hk, bitAt, decide_true, decide_false, Bool.false_and, Bool.true_and, Bool.false_or, Bool.not_false,
          show k - 8 * i < 64 by omega]
        rw [show (8 * off + k) / 8 = off + i by omega, show (8 * off + k) % 8 = k - 8 * i by omega]
      · rw [BitVec.getLsbD_of_ge _ (k - 8 * i) (by omega)]
        simp [h1, h2]

/-- The little-endian bytes of a word. -/
def bytes64 (u : BitVec 64) : List Byte := (List.range 8).map fun j => (u >>> (8 * j)).setWidth 8

@[simp] theorem length_bytes64 (u : BitVec 64) : (bytes64 u).length = 8 := by simp [bytes64]

theorem store64_ok (xs : List Byte) (off : Nat) (u : BitVec 64) (h : off + 8 ≤ xs.length) :
    store64 xs off u = .ok (writeAt xs off (bytes64 u)) := by
  have key : Ok (loop 8 (xs, u) fun i (p : List Byte × BitVec 64) => do
      let xs ← wr p.1 (off + i) (p.2.setWidth 8)
      pure (xs, p.2 >>> 8)) (fun p => p.2 = u >>> (8 * 8) ∧
        p.1 = writeAt xs off ((List.range 8).map fun j => (u >>> (8 * j)).setWidth 8)) := by
    refine loop_inv (fun i (p : List Byte × BitVec 64) => p.2 = u >>> (8 * i) ∧
        p.1 = writeAt xs off ((List.range i).map fun j => (u >>> (8 * j)).setWidth 8)) ⟨by simp, by simp⟩ ?_
    rintro i ⟨ys, v⟩ hi ⟨h1, h2⟩
    simp only at h1 h2
    have hl : ys.length = xs.length := by rw [h2, length_writeAt _ _ _ (by simp; omega)]
    simp only
    rw [wr_ok (by omega), ok_bind]
    refine Ok.pure ⟨?_, ?_⟩
    · simp only [h1]
      rw [← BitVec.shiftRight_add, Nat.mul_succ]
    · simp only [h1, range_map_succ]
      rw [set_eq_writeAt _ _ _ (by omega), h2]
      have := writeAt_append xs off ((List.range i).map fun j => (u >>> (8 * j)).setWidth 8) [(u >>> (8 * i)).setWidth 8]
        (by simp; omega)
      simpa using this
  obtain ⟨p, h1, h2, h3⟩ := key
  unfold store64
  have : (loop 8 (xs, u) fun i (x : List Byte × BitVec 64) =>
      match x with
      | (xs, u) => do
        let xs ← wr xs (off + i) (u.setWidth 8)
        pure (xs, u >>> 8)) = .ok p := h1
  rw [this, ok_bind]
  show Except.ok p.1 = _
  rw [h3]
  rfl

attribute [local irreducible] keccakF bitsOfLanes

/-! ### Blocks -/

theorem getD_zipWith_xor (A B : List Bool) (n : Nat) (hl : A.length = B.length) :
    (List.zipWith xor A B).getD n false = (A.getD n false ^^ B.getD n false) := by
  by_cases h : n < A.length
  · simp [h, show n < B.length by omega]
  · rw [List.getD_eq_default _ _ (by simp; omega), List.getD_eq_default _ _ (by omega), List.getD_eq_default _ _ (by omega)]; rfl

/-- The block that is xored to the state. -/
def padBlock (r : Nat) (B : List Bool) : List Bool := B.take r ++ List.replicate (1600 - r) false

theorem getD_padBlock (r : Nat) (B : List Bool) (n : Nat) (hB : r ≤ B.length) :
    (padBlock r B).getD n false = (decide (n < r) && B.getD n false) := by
  unfold padBlock
  by_cases h : n < r
  · rw [List.getD_append _ _ _ _ (by simp; omega), getD_take _ _ _ _ h]; simp [h]
  · rw [List.getD_append_right _ _ _ _ (by rw [List.length_take]; omega)]
    have : (List.replicate (1600 - r) false).getD (n - (B.take r).length) false = false := by
      by_cases h2 : n - (B.take r).length < 1600 - r
      · rw [List.getD_replicate _ h2]
      · rw [List.getD_eq_default _ _ (by rw [List.length_replicate]; omega)]
    rw [this]; simp [h]

theorem length_padBlock (r : Nat) (B : List Bool) (hB : r ≤ B.length) (hr : r ≤ 1600) : (padBlock r B).length = 1600 := by
  simp [padBlock]; omega

theorem xorBlock_ok (s : List (BitVec 64)) (r : Nat) (m : List Byte) (mOff : Nat) (hs : s.length = 25) (hr8 : r % 8 = 0)
    (hr : r ≤ 200) (hm : mOff + r ≤ m.length) :
    Ok (xorBlock s r m mOff) fun s' => s'.length = 25 ∧
      bitsOfLanes s' = List.zipWith xor (bitsOfLanes s) (padBlock (8 * r) (bitsOfBytes (m.drop mOff))) := by
  unfold xorBlock
  refine (loop_inv (fun i (s' : List (BitVec 64)) => s'.length = 25 ∧ ∀ l, l < 25 → ∀ k, k < 64 →
    (s'.getD l 0).getLsbD k = ((s.getD l 0).getLsbD k ^^ (decide (l < i) && bitAt m (8 * mOff + 64 * l + k)))) ?_ ?_).mono ?_
  · exact ⟨hs, by simp⟩
  · rintro i s' hi ⟨h1, h2⟩
    refine (load64_ok m (mOff + 8 * i) (by omega)).bind fun v hv => ?_
    rw [rd_ok 0 (by omega), ok_bind, wr_ok (by omega)]
    refine Ok.pure ⟨by simp [h1], ?_⟩
    intro l hl k hk
    rw [getD_set]
    by_cases hil : i = l
    · subst hil
      rw [if_pos ⟨rfl, by omega⟩, BitVec.getLsbD_xor, h2 _ hl _ hk, hv _ hk]
      simp only [Nat.lt_irrefl, decide_false, Bool.false_and, Bool.xor_false, Nat.lt_succ_self, decide_true, Bool.true_and]
      congr 2; omega
    · rw [if_neg (by omega), h2 _ hl _ hk]
      congr 2
      simp; omega
  · rintro s' ⟨h1, h2⟩
    refine ⟨h1, ?_⟩
    have hlB : 8 * r ≤ (bitsOfBytes (m.drop mOff)).length := by simp; omega
    apply ext_getD false
    · simp [length_padBlock _ _ hlB (by omega)]
    · intro n hn
      rw [length_bitsOfLanes] at hn
      rw [getD_bitsOfLanes _ _ hn, h2 _ (by omega) _ (Nat.mod_lt _ (by omega)),
        getD_zipWith_xor _ _ _ (by simp [length_padBlock _ _ hlB (by omega)]), getD_bitsOfLanes _ _ hn, getD_padBlock _ _ _ hlB,
        getD_bitsOfBytes, bitAt_drop]
      congr 2
      · simp; omega
      · congr 1; omega

variable [Permutation]

theorem absorbBlock_eq (r : Nat) (P S : List Bool) (i : Nat) :
    absorbBlock r P S i = keccakF (List.zipWith xor S (padBlock r (P.drop (r * i)))) := rfl

omit [Permutation] in
theorem foldl_range_succ_left {α : Type} (f : α → Nat → α) (s : α) (n : Nat) :
    (List.range (n + 1)).foldl f s = (List.range n).foldl (fun s i => f s (i + 1)) (f s 0) := by
  rw [List.range_succ_eq_map, List.foldl_cons, List.foldl_map]

theorem absorbLoop_ok [StatePermute] [Permutes] (r : Nat) (hr8 : r % 8 = 0) (hr0 : 0 < r) (hr : r ≤ 200) (m : List Byte) :
    ∀ (k : Nat) (s : List (BitVec 64)) (mOff q : Nat), s.length = 25 → q < r → mOff + (r * k + q) ≤ m.length →
    Ok (absorbLoop s r m mOff (r * k + q)) fun o => o.1.length = 25 ∧
      bitsOfLanes o.1 = (List.range k).foldl (absorbBlock (8 * r) (bitsOfBytes (m.drop mOff))) (bitsOfLanes s) ∧
      o.2 = (mOff + r * k, q) := by
  intro k
  induction k with
  | zero =>
    intro s mOff q hs hq hm
    rw [absorbLoop, dif_neg (by omega)]
    exact Ok.pure ⟨hs, by rw [List.range_zero, List.foldl_nil], by rw [Nat.mul_zero, Nat.add_zero, Nat.zero_add]⟩
  | succ k ih =>
    intro s mOff q hs hq hm
    rw [Nat.mul_succ] at hm
    rw [absorbLoop, dif_pos ⟨by rw [Nat.mul_succ]; omega, hr0⟩]
    refine (xorBlock_ok s r m mOff hs hr8 hr (by omega)).bind fun s1 ⟨hs1, h1⟩ => ?_
    refine (Permutes.ok s1 hs1).bind fun s2 ⟨hs2, h2⟩ => ?_
    rw [show r * (k + 1) + q - r = r * k + q by rw [Nat.mul_succ]; omega]
    refine (ih s2 (mOff + r) q hs2 hq (by omega)).mono ?_
    rintro o ⟨ho1, ho2, ho3⟩
    refine ⟨ho1, ?_, ?_⟩
    · rw [ho2, foldl_range_succ_left, h2, h1, absorbBlock_eq, Nat.mul_zero, List.drop_zero]
      congr 1
      funext S i
      rw [absorbBlock_eq, absorbBlock_eq, ← List.drop_drop, bitsOfBytes_drop, List.drop_drop]
      rw [Nat.mul_succ, Nat.add_comm (8 * r * i)]
    · rw [ho3, Nat.mul_succ]; congr 1; omega

/-- The padded message. -/
def padded (r : Nat) (M : List Byte) (suf : List Bool) : List Bool :=
  (bitsOfBytes M ++ suf) ++ pad101 (8 * r) (bitsOfBytes M ++ suf).length

omit [Permutation] in
theorem pad101_eq (r k q sl : Nat) (hr0 : 0 < r) (hq : q < r) (hsl : sl ≤ 6) :
    pad101 (8 * r) (8 * (r * k + q) + sl) = [true] ++ List.replicate (8 * r - 8 * q - sl - 2) false ++ [true] := by
  unfold pad101
  congr 3
  have e : (-((8 * (r * k + q) + sl : Nat) : Int) - 2) = ((8 * r - 8 * q - sl - 2 : Nat) : Int) + ((8 * r : Nat) : Int) * (-(k : Int) - 1) := by
    have : ((8 * r - 8 * q - sl - 2 : Nat) : Int) = 8 * r - 8 * q - sl - 2 := by omega
    rw [this]; push_cast; ring
  rw [e, Int.add_mul_emod_self_left, Int.emod_eq_of_lt (by omega) (by omega)]
  simp

omit [Permutation] in
theorem length_padded (r k q : Nat) (M : List Byte) (suf : List Bool) (hr0 : 0 < r) (hq : q < r) (hsl : suf.length ≤ 6)
    (hM : M.length = r * k + q) : (padded r M suf).length = 8 * r * (k + 1) := by
  unfold padded
  rw [List.length_append, List.length_append, length_bitsOfBytes, hM, pad101_eq r k q suf.length hr0 hq hsl]
  simp only [List.length_append, List.length_cons, List.length_nil, List.length_replicate]
  rw [Nat.mul_add, Nat.mul_succ, Nat.mul_assoc]; omega

omit [Permutation] in
theorem getD_padded (r k q : Nat) (M : List Byte) (suf : List Bool) (hr0 : 0 < r) (hq : q < r) (hsl : suf.length ≤ 6)
    (hM : M.length = r * k + q) (n : Nat) (hn : n < 8 * r) :
    ((padded r M suf).drop (8 * r * k)).getD n false =
      if n < 8 * q then bitAt M (8 * r * k + n)
      else if n < 8 * q + suf.length then suf.getD (n - 8 * q) false
      else (decide (n = 8 * q + suf.length) || decide (n = 8 * r - 1)) := by
  rw [getD_drop]
  unfold padded
  have hlen : (bitsOfBytes M ++ suf).length = 8 * (r * k + q) + suf.length := by simp [hM]
  have hm8 : 8 * (r * k + q) = 8 * r * k + 8 * q := by ring
  rw [hlen, pad101_eq r k q suf.length hr0 hq hsl]
  by_cases h1 : n < 8 * q
  · rw [if_pos h1, List.getD_append _ _ _ _ (by omega),
      List.getD_append _ _ _ _ (by rw [length_bitsOfBytes, hM]; omega), getD_bitsOfBytes]
  rw [if_neg h1]
  by_cases h2 : n < 8 * q + suf.length
  · rw [if_pos h2, List.getD_append _ _ _ _ (by omega),
      List.getD_append_right _ _ _ _ (by rw [length_bitsOfBytes, hM]; omega), length_bitsOfBytes, hM]
    congr 1; omega
  rw [if_neg h2, List.getD_append_right _ _ _ _ (by omega), hlen, List.append_assoc]
  rw [show 8 * r * k + n - (8 * (r * k + q) + suf.length) = n - (8 * q + suf.length) by omega]
  by_cases h3 : n = 8 * q + suf.length
  · subst h3; simp
  rw [List.getD_append_right _ _ _ _ (by simp; omega)]
  simp only [List.length_cons, List.length_nil, Nat.zero_add, h3, decide_false, Bool.false_or]
  by_cases h4 : n = 8 * r - 1
  · rw [List.getD_append_right _ _ _ _ (by rw [List.length_replicate]; omega), List.length_replicate,
      show n - (8 * q + suf.length) - 1 - (8 * r - 8 * q - suf.length - 2) = 0 by omega]
    simp [h4]
  · rw [List.getD_append _ _ _ _ (by rw [List.length_replicate]; omega), List.getD_replicate _ (by omega)]
    simp [h4]

/-- The domain separation byte encodes the suffix followed by the first bit of the padding. -/
def SepByte (p : Byte) (suf : List Bool) : Prop :=
  suf.length ≤ 6 ∧ ∀ k, k < 8 → p.getLsbD k = if k < suf.length then suf.getD k false else decide (k = suf.length)

/-- `keccak_absorb` with the initial content `t0` of the local array. -/
def keccak_absorbT [StatePermute] (t0 : List Byte) (s : List (BitVec 64)) (r : Nat) (m : List Byte) (mOff mlen : Nat) (p : Byte) :
    CM (List (BitVec 64)) := do
  let (s, mOff, mlen) ← absorbLoop s r m mOff mlen
  let t ← loop r t0 fun i t => wr t i 0
  let t ← loop mlen t fun i t => do
    let v ← rd m (mOff + i)
    wr t i v
  let t ← wr t mlen p
  let v ← rd t (r - 1)
  let t ← wr t (r - 1) (v ||| 128)
  xorBlock s r t 0

theorem keccak_absorbT_ok [StatePermute] [Permutes] (t0 : List Byte) (hT : t0.length = 200) (s : List (BitVec 64)) (hs : s.length = 25) (hs0 : bitsOfLanes s = List.replicate 1600 false)
    (r : Nat) (hr8 : r % 8 = 0) (hr0 : 0 < r) (hr : r < 200)
    (m : List Byte) (mOff mlen : Nat) (hm : mOff + mlen ≤ m.length) (p : Byte) (suf : List Bool) (hp : SepByte p suf) :
    Ok (keccak_absorbT t0 s r m mOff mlen p) fun s' => s'.length = 25 ∧
      keccakF (bitsOfLanes s') = absorb (8 * r) (bitsOfBytes ((m.drop mOff).take mlen) ++ suf) := by
  obtain ⟨hsl, hp⟩ := hp
  have hq : mlen % r < r := Nat.mod_lt _ hr0
  have hd : r * (mlen / r) + mlen % r = mlen := Nat.div_add_mod _ _
  generalize hM : (m.drop mOff).take mlen = M
  have hMl : M.length = r * (mlen / r) + mlen % r := by rw [← hM, hd]; simp; omega
  generalize hk : mlen / r = k at *
  generalize mlen % r = q at *
  unfold keccak_absorbT
  rw [← hd]
  refine (absorbLoop_ok r hr8 hr0 (by omega) m k s mOff q hs hq (by omega)).bind ?_
  rintro ⟨s1, mo, ml⟩ ⟨hs1, h1, h2⟩
  simp only [Prod.mk.injEq] at hs1 h1 h2
  obtain ⟨h2a, h2b⟩ := h2
  subst mo
  subst ml
  simp only
  -- the local buffer
  have hmq : mOff + r * k + q ≤ m.length := by omega
  have ht0 : (loop r t0 fun i (t : List Byte) => wr t i 0) =
      .ok (writeAt t0 0 (List.replicate r 0)) := by
    have := memset_ok t0 0 (0 : Byte) r (by omega)
    unfold memset at this; simpa using this
  rw [ht0, ok_bind]
  generalize ht1 : writeAt t0 0 (List.replicate r (0 : Byte)) = t1
  have hl1 : t1.length = 200 := by rw [← ht1, length_writeAt _ _ _ (by simp; omega), hT]
  have hb1 : ∀ i, i < r → t1.getD i 0 = 0 := by
    intro i hi
    rw [← ht1, writeAt, List.take_zero, List.nil_append, List.getD_append _ _ _ _ (by rw [List.length_replicate]; exact hi),
      List.getD_replicate _ hi]
  refine (loop_inv (fun i (t : List Byte) => t.length = 200 ∧ ∀ j, j < r →
    t.getD j 0 = if j < i then m.getD (mOff + r * k + j) 0 else 0) ⟨hl1, by simpa using hb1⟩ ?_).bind ?_
  · rintro i t hi ⟨hl, hb⟩
    rw [rd_ok 0 (by omega), ok_bind, wr_ok (by omega)]
    refine Ok.pure ⟨by simp [hl], ?_⟩
    intro j hj
    rw [getD_set, hb j hj]
    by_cases hij : i = j
    · subst hij; rw [if_pos ⟨rfl, by omega⟩, if_pos (by omega)]
    · rw [if_neg (by omega)]
      by_cases h : j < i
      · rw [if_pos h, if_pos (by omega)]
      · rw [if_neg h, if_neg (by omega)]
  rintro t ⟨hl, hb⟩
  rw [wr_ok (by omega), ok_bind, rd_ok 0 (by simp; omega), ok_bind, wr_ok (by simp; omega), ok_bind]
  generalize ht3 : ((t.set q p).set (r - 1) ((t.set q p).getD (r - 1) 0 ||| 128)) = t3
  have hl3 : t3.length = 200 := by rw [← ht3]; simp [hl]
  have hbits : ∀ n, n < 8 * r → bitAt t3 n = ((padded r M suf).drop (8 * r * k)).getD n false := by
    intro n hn
    rw [getD_padded r k q M suf hr0 hq hsl hMl n hn]
    have hj8 : n % 8 < 8 := Nat.mod_lt _ (by omega)
    have hA : ∀ i, i < r → ∀ j, j < 8 → ((t.set q p).getD i 0).getLsbD j =
        if i < q then bitAt M (8 * r * k + (8 * i + j)) else if i = q then p.getLsbD j else false := by
      intro i hi j hj
      rw [getD_set]
      by_cases hiq : i < q
      · rw [if_neg (by omega), if_pos hiq, hb _ hi, if_pos hiq, ← hM]
        rw [bitAt, show (8 * r * k + (8 * i + j)) / 8 = r * k + i by rw [Nat.mul_assoc]; omega,
          show (8 * r * k + (8 * i + j)) % 8 = j by rw [Nat.mul_assoc]; omega, getD_take _ _ _ _ (by omega), getD_drop]
        congr 2; omega
      · rw [if_neg hiq]
        by_cases hiq2 : i = q
        · subst hiq2; rw [if_pos ⟨rfl, by omega⟩, if_pos rfl]
        · rw [if_neg (by omega), if_neg hiq2, hb _ hi, if_neg hiq]; simp
    have h128 : ∀ j, j < 8 → (128 : Byte).getLsbD j = decide (j = 7) := by decide
    have e3 : bitAt t3 n = (((t.set q p).getD (n / 8) 0).getLsbD (n % 8) || decide (n = 8 * r - 1)) := by
      rw [bitAt, ← ht3, getD_set]
      by_cases hlast : r - 1 = n / 8
      · rw [if_pos ⟨hlast, by simp; omega⟩, BitVec.getLsbD_or, ← hlast, h128 _ hj8]
        congr 1; apply decide_eq_decide.mpr; omega
      · rw [if_neg (by tauto)]
        have : ¬ n = 8 * r - 1 := by omega
        simp [this]
    rw [e3, hA _ (by omega) _ hj8]
    have hn8 : 8 * (n / 8) + n % 8 = n := Nat.div_add_mod _ _
    by_cases c1 : n / 8 < q
    · rw [if_pos c1, if_pos (by omega), hn8]
      have : ¬ n = 8 * r - 1 := by omega
      simp [this]
    · rw [if_neg c1, if_neg (show ¬ n < 8 * q by omega)]
      by_cases c2 : n / 8 = q
      · rw [if_pos c2, hp _ hj8]
        by_cases c3 : n % 8 < suf.length
        · rw [if_pos c3, if_pos (by omega), show n - 8 * q = n % 8 by omega]
          have : ¬ n = 8 * r - 1 := by omega
          simp [this]
        · rw [if_neg c3, if_neg (by omega)]
          congr 1; apply decide_eq_decide.mpr; omega
      · rw [if_neg c2, if_neg (by omega)]
        have : ¬ n = 8 * q + suf.length := by omega
        simp [this]
  refine (xorBlock_ok s1 r t3 0 hs1 hr8 (by omega) (by omega)).mono ?_
  rintro s2 ⟨hs2, h2⟩
  refine ⟨hs2, ?_⟩
  rw [h2, h1, hs0]
  show _ = (List.range ((padded r M suf).length / (8 * r))).foldl (absorbBlock (8 * r) (padded r M suf)) (List.replicate 1600 false)
  rw [length_padded r k q M suf hr0 hq hsl hMl, Nat.mul_div_cancel_left _ (by omega), List.range_succ, List.foldl_append,
    List.foldl_cons, List.foldl_nil, absorbBlock_eq]
  have hpl := length_padded r k q M suf hr0 hq hsl hMl
  congr 2
  · apply List.foldl_ext
    intro S i hi
    have hi := List.mem_range.mp hi
    have hik : 8 * r * i + 8 * r ≤ 8 * r * k := by
      rw [← Nat.mul_succ]; exact Nat.mul_le_mul_left _ hi
    have h8 : 8 * (r * k) = 8 * r * k := by ring
    rw [absorbBlock_eq, absorbBlock_eq]
    congr 2
    have hlB : 8 * r ≤ ((bitsOfBytes (m.drop mOff)).drop (8 * r * i)).length := by simp; omega
    have hlP : 8 * r ≤ ((padded r M suf).drop (8 * r * i)).length := by
      rw [List.length_drop, hpl, Nat.mul_succ]; omega
    apply ext_getD false
    · rw [length_padBlock _ _ hlB (by omega), length_padBlock _ _ hlP (by omega)]
    · intro n _
      rw [getD_padBlock _ _ _ hlB, getD_padBlock _ _ _ hlP]
      by_cases hn : n < 8 * r
      · congr 1
        rw [getD_drop, getD_drop, getD_bitsOfBytes, padded, List.append_assoc, List.getD_append _ _ _ _ (by simp; omega),
          getD_bitsOfBytes, ← hM, bitAt, bitAt, getD_take _ _ _ _ (by omega)]
      · simp [hn]
  · have hlB : 8 * r ≤ (bitsOfBytes (t3.drop 0)).length := by simp; omega
    have hlP : 8 * r ≤ ((padded r M suf).drop (8 * r * k)).length := by
      rw [List.length_drop, hpl, Nat.mul_succ]; omega
    apply ext_getD false
    · rw [length_padBlock _ _ hlB (by omega), length_padBlock _ _ hlP (by omega)]
    · intro n _
      rw [getD_padBlock _ _ _ hlB, getD_padBlock _ _ _ hlP]
      by_cases hn : n < 8 * r
      · congr 1
        rw [List.drop_zero, getD_bitsOfBytes, hbits n hn]
      · simp [hn]

theorem keccak_absorb_ok [StatePermute] [Permutes] (s : List (BitVec 64)) (hs : s.length = 25) (hs0 : bitsOfLanes s = List.replicate 1600 false)
    (r : Nat) (hr8 : r % 8 = 0) (hr0 : 0 < r) (hr : r < 200)
    (m : List Byte) (mOff mlen : Nat) (hm : mOff + mlen ≤ m.length) (p : Byte) (suf : List Bool) (hp : SepByte p suf) :
    Ok (keccak_absorb s r m mOff mlen p) fun s' => s'.length = 25 ∧
      keccakF (bitsOfLanes s') = absorb (8 * r) (bitsOfBytes ((m.drop mOff).take mlen) ++ suf) :=
  keccak_absorbT_ok (uninit 8 20 200) (by simp) s hs hs0 r hr8 hr0 hr m mOff mlen hm p suf hp

/-! ### Squeezing -/

omit [Permutation] in
/-- The bytes of the rate part of the state. -/
theorem rate_bytes (s : List (BitVec 64)) (n : Nat) (hn : n ≤ 25) :
    (List.range n).flatMap (fun i => bytes64 (s.getD i 0)) = bytesOfBits ((bitsOfLanes s).take (64 * n)) := by
  apply bytes_ext
  · rw [length_flatMap_range 8 _ (fun _ => length_bytes64 _), length_bytesOfBits, List.length_take, length_bitsOfLanes]; omega
  · intro m hm j hj
    rw [length_flatMap_range 8 _ (fun _ => length_bytes64 _)] at hm
    rw [getD_flatMap_range 8 (by omega) _ (fun _ => length_bytes64 _) 0 n m hm,
      bytesOfBits_getD _ _ _ (by rw [List.length_take, length_bitsOfLanes]; omega) hj, getD_take _ _ _ _ (by omega),
      getD_bitsOfLanes _ _ (by omega), bytes64, getD_map_range _ _ _ _ (by omega), BitVec.getLsbD_setWidth, BitVec.getLsbD_ushiftRight]
    simp only [hj, decide_true, Bool.true_and]
    rw [show (8 * m + j) / 64 = m / 8 by omega, show (8 * m + j) % 64 = 8 * (m % 8) + j by omega]

/-- The first `n` output blocks of `r` bytes of a sponge in state `S`. -/
def sqBytes (r : Nat) (S : List Bool) (n : Nat) : List Byte :=
  (List.range n).flatMap fun k => bytesOfBits ((keccakF^[k] S).take (8 * r))

theorem sqBytes_succ (r : Nat) (S : List Bool) (n : Nat) :
    sqBytes r S (n + 1) = sqBytes r S n ++ bytesOfBits ((keccakF^[n] S).take (8 * r)) := by
  unfold sqBytes
  rw [List.range_succ, List.flatMap_append, List.flatMap_cons, List.flatMap_nil, List.append_nil]

theorem length_keccakF (S : List Bool) : (keccakF S).length = 1600 := by
  unfold keccakF stringOfState; simp

theorem length_keccakF_iter (S : List Bool) (hS : S.length = 1600) (k : Nat) : (keccakF^[k] S).length = 1600 := by
  cases k with
  | zero => exact hS
  | succ k => rw [Function.iterate_succ_apply', length_keccakF]

theorem length_sqBlock (r : Nat) (hr : r ≤ 200) (S : List Bool) (hS : S.length = 1600) (k : Nat) :
    (bytesOfBits ((keccakF^[k] S).take (8 * r))).length = r := by
  rw [length_bytesOfBits, List.length_take, length_keccakF_iter S hS]; omega

theorem length_sqBytes (r : Nat) (hr : r ≤ 200) (S : List Bool) (hS : S.length = 1600) (n : Nat) :
    (sqBytes r S n).length = r * n := length_flatMap_range r _ (length_sqBlock r hr S hS) n

theorem squeeze_eq_flatMap (r : Nat) : ∀ (n : Nat) (S : List Bool),
    squeeze r S n = (List.range n).flatMap fun k => (keccakF^[k] S).take r := by
  intro n
  induction n with
  | zero => intro S; rfl
  | succ n ih =>
    intro S
    rw [squeeze, ih, List.range_succ_eq_map, List.flatMap_cons, List.flatMap_map]
    rfl

theorem bytesOfBits_squeeze (r : Nat) (hr : r ≤ 200) (S : List Bool) (hS : S.length = 1600) (n : Nat) :
    bytesOfBits (squeeze (8 * r) S n) = sqBytes r S n := by
  rw [squeeze_eq_flatMap, sqBytes]
  induction n with
  | zero => rw [List.range_zero, List.flatMap_nil, List.flatMap_nil]; rfl
  | succ n ih =>
    rw [List.range_succ, List.flatMap_append, List.flatMap_append, bytesOfBits_append, ih]
    · simp
    · rw [length_flatMap_range (8 * r)]
      · rw [Nat.mul_assoc]; omega
      · intro k; rw [List.length_take, length_keccakF_iter S hS]; omega

theorem squeezeblocks_ok [StatePermute] [Permutes] (h : List Byte) (hOff n : Nat) (s : List (BitVec 64)) (r : Nat) (hr8 : r % 8 = 0) (hr : r ≤ 200)
    (hs : s.length = 25) (hh : hOff + r * n ≤ h.length) :
    Ok (keccak_squeezeblocks h hOff n s r) fun o => o.1 = writeAt h hOff (sqBytes r (keccakF (bitsOfLanes s)) n) ∧
      o.2.length = 25 ∧ bitsOfLanes o.2 = keccakF^[n] (bitsOfLanes s) := by
  have hS : (keccakF (bitsOfLanes s)).length = 1600 := length_keccakF _
  unfold keccak_squeezeblocks
  refine (loop_inv (fun i (o : List Byte × Nat × List (BitVec 64)) =>
    o.1 = writeAt h hOff (sqBytes r (keccakF (bitsOfLanes s)) i) ∧ o.2.1 = hOff + r * i ∧ o.2.2.length = 25 ∧
      bitsOfLanes o.2.2 = keccakF^[i] (bitsOfLanes s)) ⟨by simp [sqBytes], by simp, hs, rfl⟩ ?_).bind ?_
  · rintro i ⟨h1, o1, s1⟩ hi ⟨e1, e2, e3, e4⟩
    simp only at e1 e2 e3 e4
    have hin : r * i + r ≤ r * n := by rw [← Nat.mul_succ]; exact Nat.mul_le_mul_left _ hi
    have hl := length_sqBytes r hr _ hS i
    have hl1 : h1.length = h.length := by rw [e1, length_writeAt _ _ _ (by omega)]
    simp only
    refine (Permutes.ok s1 e3).bind fun s2 ⟨hs2, h2⟩ => ?_
    have hb := loop_blocks 8 (fun i => bytes64 (s2.getD i 0)) (fun _ => length_bytes64 _) (r >>> 3) h1 o1
      (by rw [Nat.shiftRight_eq_div_pow]; omega)
      (fun i h => do
        let v ← rd s2 i
        store64 h (o1 + 8 * i) v) (by
        intro j a' hj ha
        rw [Nat.shiftRight_eq_div_pow] at hj
        rw [rd_ok 0 (by omega), ok_bind, store64_ok _ _ _ (by omega), wrs_ok _ _ _ (by simp; omega)])
    rw [hb, ok_bind]
    refine Ok.pure ⟨?_, ?_, hs2, ?_⟩
    · simp only
      rw [rate_bytes _ _ (by rw [Nat.shiftRight_eq_div_pow]; omega), h2, e4, e1, e2, sqBytes_succ]
      have e8 : 64 * (r >>> 3) = 8 * r := by rw [Nat.shiftRight_eq_div_pow]; omega
      rw [e8]
      have := writeAt_append h hOff (sqBytes r (keccakF (bitsOfLanes s)) i) (bytesOfBits ((keccakF^[i] (keccakF (bitsOfLanes s))).take (8 * r)))
        (by rw [hl, length_sqBlock r hr _ hS]; omega)
      rw [hl] at this
      rw [← Function.iterate_succ_apply' keccakF, Function.iterate_succ_apply, this]
    · simp only
      rw [e2, Nat.mul_succ]; omega
    · simp only
      rw [h2, e4, Function.iterate_succ_apply']
  · rintro ⟨h1, o1, s1⟩ ⟨e1, e2, e3, e4⟩
    exact Ok.pure ⟨e1, e3, e4⟩

omit [Permutation] in
theorem clearState_ok : Ok clearState fun s => s.length = 25 ∧ bitsOfLanes s = List.replicate 1600 false := by
  unfold clearState
  have := memset_ok (uninit 64 21 25) 0 (0 : BitVec 64) 25 (by simp)
  unfold memset at this
  simp only [Nat.zero_add] at this
  rw [this, writeAt_full _ _ (by simp)]
  refine Ok.pure ⟨by rw [List.length_replicate], ?_⟩
  unfold bitsOfLanes
  apply ext_getD false (by rw [List.length_map, List.length_range, List.length_replicate])
  intro n hn
  rw [List.length_map, List.length_range] at hn
  rw [getD_map_range _ _ _ _ hn, List.getD_replicate _ hn, List.getD_replicate _ (by omega)]
  simp

theorem length_absorb (r : Nat) (N : List Bool) : (absorb r N).length = 1600 := by
  unfold absorb
  simp only
  generalize (N ++ pad101 r N.length).length / r = n
  induction n with
  | zero => rw [List.range_zero, List.foldl_nil, List.length_replicate]
  | succ n ih =>
    rw [List.range_succ, List.foldl_append, List.foldl_cons, List.foldl_nil, absorbBlock, length_keccakF]

omit [Permutation] in
theorem sepByte_sha3 : SepByte 0x06 [false, true] := ⟨by decide, by decide⟩
omit [Permutation] in
theorem sepByte_shake : SepByte 0x1F [true, true, true, true] := ⟨by decide, by decide⟩

/-- A sponge output cut to `n` bytes, for `n` bytes from `k` or more blocks. -/
theorem sponge_bytes (r : Nat) (hr0 : 0 < r) (hr : r ≤ 200) (N : List Bool) (n k : Nat) (hk : n ≤ r * k) :
    bytesOfBits (sponge (8 * r) N (8 * n)) = (sqBytes r (absorb (8 * r) N) k).take n := by
  have hS := length_absorb (8 * r) N
  unfold sponge
  rw [bytesOfBits_take, bytesOfBits_squeeze r hr _ hS, Nat.mul_div_mul_left _ _ (by omega)]
  have hn1 : n < r * (n / r + 1) := Nat.lt_mul_div_succ n hr0
  apply ext_getD 0
  · rw [List.length_take, List.length_take, length_sqBytes r hr _ hS, length_sqBytes r hr _ hS]; omega
  · intro i hi
    rw [List.length_take, length_sqBytes r hr _ hS] at hi
    rw [getD_take _ _ _ _ (by omega), getD_take _ _ _ _ (by omega), sqBytes, sqBytes,
      getD_flatMap_range r hr0 _ (length_sqBlock r hr _ hS) 0 _ i (by omega),
      getD_flatMap_range r hr0 _ (length_sqBlock r hr _ hS) 0 _ i (by omega)]

omit [Permutation] in
/-- The final copy loops. -/
theorem copyLoop_ok (dst : List Byte) (doff : Nat) (src : List Byte) (n : Nat) (hs : n ≤ src.length) (hd : doff + n ≤ dst.length) :
    (loop n dst fun i dst => do
      let v ← rd src i
      wr dst (doff + i) v) = .ok (writeAt dst doff (src.take n)) := by
  have := memcpy_ok dst doff src 0 n (by omega) hd
  unfold memcpy at this
  simpa using this

theorem sha3_256_ok [StatePermute] [Permutes] (output : List Byte) (outOff : Nat) (input : List Byte) (inOff inlen : Nat)
    (ho : outOff + 32 ≤ output.length) (hi : inOff + inlen ≤ input.length) :
    sha3_256 output outOff input inOff inlen =
      .ok (writeAt output outOff (Keccak.sha3_256 ((input.drop inOff).take inlen))) := by
  unfold sha3_256
  obtain ⟨s0, e0, hs0, hz⟩ := clearState_ok
  rw [e0, ok_bind]
  obtain ⟨s1, e1, hs1, h1⟩ := keccak_absorb_ok s0 hs0 hz 136 (by omega) (by omega) (by omega) input inOff inlen hi _ _ sepByte_sha3
  rw [e1, ok_bind]
  obtain ⟨⟨t, s2⟩, e2, h2, -, -⟩ := squeezeblocks_ok (uninit 8 23 SHA3_256_RATE) 0 1 s1 136 (by omega) (by omega) hs1 (by simp)
  rw [e2, ok_bind]
  simp only at h2 ⊢
  have hl := length_sqBytes 136 (by omega) (keccakF (bitsOfLanes s1)) (length_keccakF _) 1
  rw [writeAt_full _ _ (by rw [hl]; simp)] at h2
  rw [copyLoop_ok _ _ _ _ (by rw [h2, hl]; omega) ho, h2, h1, Keccak.sha3_256,
    show (256 : Nat) = 8 * 32 from rfl, show 1600 - 512 = 8 * 136 from rfl, sponge_bytes 136 (by omega) (by omega) _ 32 1 (by omega)]

theorem sha3_512_ok [StatePermute] [Permutes] (output : List Byte) (outOff : Nat) (input : List Byte) (inOff inlen : Nat)
    (ho : outOff + 64 ≤ output.length) (hi : inOff + inlen ≤ input.length) :
    sha3_512 output outOff input inOff inlen =
      .ok (writeAt output outOff (Keccak.sha3_512 ((input.drop inOff).take inlen))) := by
  unfold sha3_512
  obtain ⟨s0, e0, hs0, hz⟩ := clearState_ok
  rw [e0, ok_bind]
  obtain ⟨s1, e1, hs1, h1⟩ := keccak_absorb_ok s0 hs0 hz 72 (by omega) (by omega) (by omega) input inOff inlen hi _ _ sepByte_sha3
  rw [e1, ok_bind]
  obtain ⟨⟨t, s2⟩, e2, h2, -, -⟩ := squeezeblocks_ok (uninit 8 24 SHA3_512_RATE) 0 1 s1 72 (by omega) (by omega) hs1 (by simp)
  rw [e2, ok_bind]
  simp only at h2 ⊢
  have hl := length_sqBytes 72 (by omega) (keccakF (bitsOfLanes s1)) (length_keccakF _) 1
  rw [writeAt_full _ _ (by rw [hl]; simp)] at h2
  rw [copyLoop_ok _ _ _ _ (by rw [h2, hl]; omega) ho, h2, h1, Keccak.sha3_512,
    show (512 : Nat) = 8 * 64 from rfl, show 1600 - 1024 = 8 * 72 from rfl, sponge_bytes 72 (by omega) (by omega) _ 64 1 (by omega)]

theorem shake128_ok [StatePermute] [Permutes] (output : List Byte) (outOff outlen : Nat) (input : List Byte) (inOff inlen : Nat)
    (ho : outOff + outlen ≤ output.length) (hi : inOff + inlen ≤ input.length) :
    shake128 output outOff outlen input inOff inlen =
      .ok (writeAt output outOff (Keccak.shake128 ((input.drop inOff).take inlen) outlen)) := by
  unfold shake128
  obtain ⟨s0, e0, hs0, hz⟩ := clearState_ok
  dsimp only
  rw [e0, ok_bind]
  obtain ⟨s1, e1, hs1, h1⟩ := keccak_absorb_ok s0 hs0 hz 168 (by omega) (by omega) (by omega) input inOff inlen hi _ _ sepByte_shake
  rw [e1, ok_bind]
  have hq : 168 * (outlen / 168) + outlen % 168 = outlen := Nat.div_add_mod _ _
  have hq2 := Nat.mod_lt outlen (show 0 < 168 by omega)
  simp only [SHAKE128_RATE]
  generalize outlen / 168 = n at *
  generalize outlen % 168 = q at *
  obtain ⟨⟨o, s2⟩, e2, h2, hs2, h3⟩ := squeezeblocks_ok output outOff n s1 168 (by omega) (by omega) hs1 (by omega)
  rw [e2, ok_bind]
  simp only at h2 hs2 h3 ⊢
  have hS : (keccakF (bitsOfLanes s1)).length = 1600 := length_keccakF _
  have hl := length_sqBytes 168 (by omega) _ hS n
  have hspec : Keccak.shake128 ((input.drop inOff).take inlen) outlen = (sqBytes 168 (keccakF (bitsOfLanes s1)) (n + 1)).take outlen := by
    rw [Keccak.shake128, show 1600 - 256 = 8 * 168 from rfl, sponge_bytes 168 (by omega) (by omega) _ outlen (n + 1) (by omega), h1]
  rw [show outlen - n * 168 = q by omega]
  have hstep : sqBytes 168 (keccakF (bitsOfLanes s1)) (n + 1) = sqBytes 168 (keccakF (bitsOfLanes s1)) n ++
      bytesOfBits ((keccakF^[n] (keccakF (bitsOfLanes s1))).take (8 * 168)) := sqBytes_succ _ _ _
  by_cases hq0 : q = 0
  · subst hq0
    rw [if_neg (by simp), pure_eq_ok, h2, hspec, hstep, List.take_append_of_le_length (by omega), List.take_of_length_le (by omega)]
  · rw [if_pos hq0]
    obtain ⟨⟨t, s3⟩, e4, h4, -, -⟩ := squeezeblocks_ok (uninit 8 22 168) 0 1 s2 168 (by omega) (by omega) hs2 (by simp)
    rw [e4, ok_bind]
    simp only at h4 ⊢
    have hl2 := length_sqBytes 168 (by omega) (keccakF (bitsOfLanes s2)) (length_keccakF _) 1
    rw [writeAt_full _ _ (by rw [hl2]; simp)] at h4
    have hlo : o.length = output.length := by rw [h2, length_writeAt _ _ _ (by omega)]
    rw [copyLoop_ok _ _ _ _ (by rw [h4, hl2]; omega) (by omega), h4, h2, hspec, hstep]
    have hb : sqBytes 168 (keccakF (bitsOfLanes s2)) 1 = bytesOfBits ((keccakF^[n] (keccakF (bitsOfLanes s1))).take (8 * 168)) := by
      rw [h3, ← Function.iterate_succ_apply' keccakF, Function.iterate_succ_apply, sqBytes_succ]; rfl
    rw [hb]
    have hlb := length_sqBlock 168 (by omega) _ hS n
    generalize bytesOfBits ((keccakF^[n] (keccakF (bitsOfLanes s1))).take (8 * 168)) = B at *
    generalize sqBytes 168 (keccakF (bitsOfLanes s1)) n = A at *
    have := writeAt_append output outOff A (B.take q) (by simp; omega)
    rw [hl] at this
    rw [show outOff + n * 168 = outOff + 168 * n by omega, this, List.take_append,
      List.take_of_length_le (show A.length ≤ outlen by omega), hl, show outlen - 168 * n = q by omega]

theorem length_shake128 (M : List Byte) (n : Nat) : (Keccak.shake128 M n).length = n := by
  rw [Keccak.shake128, show 1600 - 256 = 8 * 168 from rfl, sponge_bytes 168 (by omega) (by omega) _ n (n / 168 + 1)
    (Nat.le_of_lt (Nat.lt_mul_div_succ n (by omega))), List.length_take, length_sqBytes 168 (by omega) _ (length_absorb _ _)]
  have := Nat.lt_mul_div_succ n (show 0 < 168 by omega)
  omega

theorem length_sha3_256 (M : List Byte) : (Keccak.sha3_256 M).length = 32 := by
  rw [Keccak.sha3_256, show (256 : Nat) = 8 * 32 from rfl, show 1600 - 512 = 8 * 136 from rfl,
    sponge_bytes 136 (by omega) (by omega) _ 32 1 (by omega), List.length_take, length_sqBytes 136 (by omega) _ (length_absorb _ _)]; rfl

theorem length_sha3_512 (M : List Byte) : (Keccak.sha3_512 M).length = 64 := by
  rw [Keccak.sha3_512, show (512 : Nat) = 8 * 64 from rfl, show 1600 - 1024 = 8 * 72 from rfl,
    sponge_bytes 72 (by omega) (by omega) _ 64 1 (by omega), List.length_take, length_sqBytes 72 (by omega) _ (length_absorb _ _)]; rfl

/-- A shorter SHAKE output is a prefix of a longer one. -/
theorem shake128_prefix (M : List Byte) (n n' : Nat) (h : n ≤ n') :
    Keccak.shake128 M n = (Keccak.shake128 M n').take n := by
  have h1 := Nat.lt_mul_div_succ n' (show 0 < 168 by omega)
  rw [Keccak.shake128, Keccak.shake128, show 1600 - 256 = 8 * 168 from rfl,
    sponge_bytes 168 (by omega) (by omega) _ n (n' / 168 + 1) (by omega),
    sponge_bytes 168 (by omega) (by omega) _ n' (n' / 168 + 1) (by omega), List.take_take, Nat.min_eq_left h]

end Saber

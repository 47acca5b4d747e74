import Verif.Model.Avx.AesNi
import Verif.Proof.U.AesCtr
/-!
# The AES-NI key stream
-/
namespace Saber.Avx.AesNi
open Spec.Aes U.Aes

/-! ### Key expansion -/

theorem four {w : List Byte} (h : w.length = 4) : ∃ a b c d, w = [a, b, c, d] := by
  rcases w with _ | ⟨a, _ | ⟨b, _ | ⟨c, _ | ⟨d, _ | ⟨e, t⟩⟩⟩⟩⟩ <;> simp at h
  exact ⟨_, _, _, _, rfl⟩

theorem roundKey_words (key : List Byte) (i : Nat) : roundKey key i =
    keyWord key (4 * i) ++ keyWord key (4 * i + 1) ++ keyWord key (4 * i + 2) ++ keyWord key (4 * i + 3) := by
  simp [roundKey, List.range_succ]

/-- The two shuffles and exclusive ors, on words. -/
theorem mix_words (a0 a1 a2 a3 t1 t2 t3 : List Byte) (h0 : a0.length = 4) (h1 : a1.length = 4) (h2 : a2.length = 4) (h3 : a3.length = 4)
    (g1 : t1.length = 4) (g2 : t2.length = 4) (g3 : t3.length = 4) (imm : Nat) (him : imm = 0xff ∨ imm = 0xaa)
    (s0 s1 s2 s3 : List Byte) (k0 : s0.length = 4) (k1 : s1.length = 4) (k2 : s2.length = 4) (k3 : s3.length = 4) (r : List Byte)
    (hr : r = if imm = 0xff then s3 else s2) :
    let x := a0 ++ a1 ++ a2 ++ a3
    let z := List.replicate 4 (0 : Byte) ++ t1 ++ t2 ++ t3
    let p := s0 ++ s1 ++ s2 ++ s3
    let z1 := shuffle_ps z x 0x10
    let x1 := xors x z1
    let z2 := shuffle_ps z1 x1 0x8c
    let x2 := xors x1 z2
    let w0 := xors a0 r
    let w1 := xors a1 w0
    let w2 := xors a2 w1
    let w3 := xors a3 w2
    xors x2 (shuffle_ps p p imm) = w0 ++ w1 ++ w2 ++ w3 ∧
      ∃ u1 u2 u3, z2 = List.replicate 4 (0 : Byte) ++ u1 ++ u2 ++ u3 ∧ u1.length = 4 ∧ u2.length = 4 ∧ u3.length = 4 := by
  obtain ⟨_, _, _, _, rfl⟩ := four h0
  obtain ⟨_, _, _, _, rfl⟩ := four h1
  obtain ⟨_, _, _, _, rfl⟩ := four h2
  obtain ⟨_, _, _, _, rfl⟩ := four h3
  obtain ⟨_, _, _, _, rfl⟩ := four g1
  obtain ⟨_, _, _, _, rfl⟩ := four g2
  obtain ⟨_, _, _, _, rfl⟩ := four g3
  obtain ⟨_, _, _, _, rfl⟩ := four k0
  obtain ⟨_, _, _, _, rfl⟩ := four k1
  obtain ⟨_, _, _, _, rfl⟩ := four k2
  obtain ⟨_, _, _, _, rfl⟩ := four k3
  subst hr
  refine ⟨?_, ⟨_, _, _, rfl, rfl, rfl, rfl⟩⟩
  rcases him with rfl | rfl
  · simp [shuffle_ps, word, xors]
    and_intros <;> ac_rfl
  · simp [shuffle_ps, word, xors]
    and_intros <;> ac_rfl

/-- The state before entry `m` of the table of round keys is written; `e` and `o` are the numbers of the round keys in `temp0` and `temp2`. -/
structure KInv (key : List Byte) (m e o : Nat) (s : KS) : Prop where
  len : s.rkeys.length = 16
  rk : ∀ i, i < m → s.rkeys.getD i [] = roundKey key i
  idx : s.idx = m
  t0 : s.temp0 = roundKey key e
  t2 : s.temp2 = roundKey key o
  t4 : ∃ u1 u2 u3 : List Byte, s.temp4 = List.replicate 4 (0 : Byte) ++ u1 ++ u2 ++ u3 ∧ u1.length = 4 ∧ u2.length = 4 ∧ u3.length = 4

theorem word3 {a b c d : List Byte} (ha : a.length = 4) (hb : b.length = 4) (hc : c.length = 4) (hd : d.length = 4) : word (a ++ b ++ c ++ d) 3 = d := by
  obtain ⟨_, _, _, _, rfl⟩ := four ha
  obtain ⟨_, _, _, _, rfl⟩ := four hb
  obtain ⟨_, _, _, _, rfl⟩ := four hc
  obtain ⟨_, _, _, _, rfl⟩ := four hd
  rfl

theorem word1 {a b c d : List Byte} (ha : a.length = 4) (hb : b.length = 4) : word (a ++ b ++ c ++ d) 1 = b := by
  obtain ⟨_, _, _, _, rfl⟩ := four ha
  obtain ⟨_, _, _, _, rfl⟩ := four hb
  rfl

theorem rotWord_map (w : List Byte) : rotWord (w.map sbox) = (w.drop 1 ++ w.take 1).map sbox := by
  simp [rotWord, List.map_take]

theorem length_rotWord {w : List Byte} (h : w.length = 4) : (rotWord w).length = 4 := by
  obtain ⟨_, _, _, _, rfl⟩ := four h
  rfl

theorem getD_set_lt {α : Type} {a : List α} {m i : Nat} {v d : α} {f : Nat → α} (hm : m < a.length) (h : ∀ i, i < m → a.getD i d = f i) (hv : v = f m)
    (hi : i < m + 1) : (a.set m v).getD i d = f i := by
  rw [getD_set]
  by_cases e : m = i
  · subst e; rw [if_pos ⟨rfl, hm⟩, hv]
  · rw [if_neg (fun hh => e hh.1), h i (by omega)]

theorem BLOCK1_ok {key : List Byte} (hk : key.length = 32) {r : Nat} (hr : r < 7) {imm : Byte} (him : [imm, 0, 0, 0] = rcon (r + 1)) {s : KS}
    (h : KInv key (2 * r + 1) (2 * r) (2 * r + 1) s) : Ok (BLOCK1 imm s) (KInv key (2 * r + 2) (2 * r + 2) (2 * r + 1)) := by
  obtain ⟨temp0, temp2, temp4, idx, rkeys⟩ := s
  obtain ⟨hl, hrk, hidx, rfl, rfl, u1, u2, u3, rfl, l1, l2, l3⟩ := h
  dsimp only at hl hrk hidx
  subst hidx
  unfold BLOCK1
  dsimp only
  rw [wr_ok (by omega), ok_bind]
  have L := length_keyWord key hk
  rw [roundKey_words key (2 * r), roundKey_words key (2 * r + 1), aeskeygenassist, word1 (L _) (L _), word3 (L _) (L _) (L _) (L _)]
  obtain ⟨e1, e2⟩ := mix_words _ _ _ _ u1 u2 u3 (L (4 * (2 * r))) (L (4 * (2 * r) + 1)) (L (4 * (2 * r) + 2)) (L (4 * (2 * r) + 3)) l1 l2 l3
    0xff (.inl rfl) ((keyWord key (4 * (2 * r + 1) + 1)).map sbox) (xors (rotWord ((keyWord key (4 * (2 * r + 1) + 1)).map sbox)) [imm, 0, 0, 0])
    ((keyWord key (4 * (2 * r + 1) + 3)).map sbox) (xors (rotWord ((keyWord key (4 * (2 * r + 1) + 3)).map sbox)) [imm, 0, 0, 0])
    (by simp [L]) (by simp [length_xors, length_rotWord, L]) (by simp [L]) (by simp [length_xors, length_rotWord, L]) _ rfl
  refine Ok.pure ⟨by simpa using hl, fun i hi => getD_set_lt (by omega) hrk (roundKey_words key (2 * r + 1)).symm hi, rfl, ?_, (roundKey_words key (2 * r + 1)).symm, e2⟩
  refine e1.trans ?_
  rw [if_pos rfl, him, rotWord_map, roundKey_words key (2 * r + 2)]
  have w0 := keyWord_ge key (4 * (2 * r + 2)) (by omega)
  have w1 := keyWord_ge key (4 * (2 * r + 2) + 1) (by omega)
  have w2 := keyWord_ge key (4 * (2 * r + 2) + 2) (by omega)
  have w3 := keyWord_ge key (4 * (2 * r + 2) + 3) (by omega)
  rw [if_pos (by omega), show 4 * (2 * r + 2) - 8 = 4 * (2 * r) by omega, show 4 * (2 * r + 2) - 1 = 4 * (2 * r + 1) + 3 by omega,
    show 4 * (2 * r + 2) / 8 = r + 1 by omega] at w0
  rw [if_neg (by omega), if_neg (by omega), show 4 * (2 * r + 2) + 1 - 8 = 4 * (2 * r) + 1 by omega,
    show 4 * (2 * r + 2) + 1 - 1 = 4 * (2 * r + 2) by omega] at w1
  rw [if_neg (by omega), if_neg (by omega), show 4 * (2 * r + 2) + 2 - 8 = 4 * (2 * r) + 2 by omega,
    show 4 * (2 * r + 2) + 2 - 1 = 4 * (2 * r + 2) + 1 by omega] at w2
  rw [if_neg (by omega), if_neg (by omega), show 4 * (2 * r + 2) + 3 - 8 = 4 * (2 * r) + 3 by omega,
    show 4 * (2 * r + 2) + 3 - 1 = 4 * (2 * r + 2) + 2 by omega] at w3
  rw [w3, w2, w1, w0]

theorem BLOCK2_ok {key : List Byte} (hk : key.length = 32) {r : Nat} (hr : r < 6) {imm : Byte} {s : KS}
    (h : KInv key (2 * r + 2) (2 * r + 2) (2 * r + 1) s) : Ok (BLOCK2 imm s) (KInv key (2 * r + 3) (2 * r + 2) (2 * r + 3)) := by
  obtain ⟨temp0, temp2, temp4, idx, rkeys⟩ := s
  obtain ⟨hl, hrk, hidx, rfl, rfl, u1, u2, u3, rfl, l1, l2, l3⟩ := h
  dsimp only at hl hrk hidx
  subst hidx
  unfold BLOCK2
  dsimp only
  rw [wr_ok (by omega), ok_bind]
  have L := length_keyWord key hk
  rw [roundKey_words key (2 * r + 2), roundKey_words key (2 * r + 1), aeskeygenassist, word1 (L _) (L _), word3 (L _) (L _) (L _) (L _)]
  obtain ⟨e1, e2⟩ := mix_words _ _ _ _ u1 u2 u3 (L (4 * (2 * r + 1))) (L (4 * (2 * r + 1) + 1)) (L (4 * (2 * r + 1) + 2)) (L (4 * (2 * r + 1) + 3)) l1 l2 l3
    0xaa (.inr rfl) ((keyWord key (4 * (2 * r + 2) + 1)).map sbox) (xors (rotWord ((keyWord key (4 * (2 * r + 2) + 1)).map sbox)) [imm, 0, 0, 0])
    ((keyWord key (4 * (2 * r + 2) + 3)).map sbox) (xors (rotWord ((keyWord key (4 * (2 * r + 2) + 3)).map sbox)) [imm, 0, 0, 0])
    (by simp [L]) (by simp [length_xors, length_rotWord, L]) (by simp [L]) (by simp [length_xors, length_rotWord, L]) _ rfl
  refine Ok.pure ⟨by simpa using hl, fun i hi => getD_set_lt (by omega) hrk (roundKey_words key (2 * r + 2)).symm hi, rfl, (roundKey_words key (2 * r + 2)).symm, ?_, e2⟩
  refine e1.trans ?_
  rw [if_neg (by decide), roundKey_words key (2 * r + 3)]
  have w0 := keyWord_ge key (4 * (2 * r + 3)) (by omega)
  have w1 := keyWord_ge key (4 * (2 * r + 3) + 1) (by omega)
  have w2 := keyWord_ge key (4 * (2 * r + 3) + 2) (by omega)
  have w3 := keyWord_ge key (4 * (2 * r + 3) + 3) (by omega)
  rw [if_neg (by omega), if_pos (by omega), show 4 * (2 * r + 3) - 8 = 4 * (2 * r + 1) by omega,
    show 4 * (2 * r + 3) - 1 = 4 * (2 * r + 2) + 3 by omega] at w0
  rw [if_neg (by omega), if_neg (by omega), show 4 * (2 * r + 3) + 1 - 8 = 4 * (2 * r + 1) + 1 by omega,
    show 4 * (2 * r + 3) + 1 - 1 = 4 * (2 * r + 3) by omega] at w1
  rw [if_neg (by omega), if_neg (by omega), show 4 * (2 * r + 3) + 2 - 8 = 4 * (2 * r + 1) + 2 by omega,
    show 4 * (2 * r + 3) + 2 - 1 = 4 * (2 * r + 3) + 1 by omega] at w2
  rw [if_neg (by omega), if_neg (by omega), show 4 * (2 * r + 3) + 3 - 8 = 4 * (2 * r + 1) + 3 by omega,
    show 4 * (2 * r + 3) + 3 - 1 = 4 * (2 * r + 3) + 2 by omega] at w3
  rw [w3, w2, w1, w0]

/-- The table of round keys. -/
structure RkOk (key : List Byte) (rkeys : List M128) : Prop where
  len : rkeys.length = 16
  rk : ∀ i, i < 15 → rkeys.getD i [] = roundKey key i

theorem load_ok {p : List Byte} {off : Nat} (h : off + 16 ≤ p.length) : load p off = .ok ((p.drop off).take 16) := by rw [load, if_pos h]

theorem take16 (l : List Byte) (o : Nat) : (l.drop o).take 16 =
    (l.drop o).take 4 ++ (l.drop (o + 4)).take 4 ++ (l.drop (o + 8)).take 4 ++ (l.drop (o + 12)).take 4 := by
  rw [show 16 = 4 + 4 + 4 + 4 from rfl, List.take_add, List.take_add, List.take_add]
  simp only [List.drop_drop]

theorem roundKey_first (key : List Byte) (i : Nat) (h : i < 2) : roundKey key i = (key.drop (16 * i)).take 16 := by
  rw [take16, roundKey_words, keyWord_lt _ _ (by omega), keyWord_lt _ _ (by omega), keyWord_lt _ _ (by omega), keyWord_lt _ _ (by omega)]
  interval_cases i <;> rfl

theorem expand_ok (key : List Byte) (off : Nat) (rkeys : List M128) (hk : off + 32 ≤ key.length) (hr : rkeys.length = 16) :
    Ok (aesni_key256_expand key off rkeys) (RkOk ((key.drop off).take 32)) := by
  have hkl : ((key.drop off).take 32).length = 32 := by simp; omega
  obtain ⟨k, hke⟩ : ∃ k, k = (key.drop off).take 32 := ⟨_, rfl⟩
  have e0 : (key.drop (off + 0)).take 16 = roundKey k 0 := by
    rw [roundKey_first _ _ (by decide), hke, List.drop_take, List.take_take, List.drop_drop]; rfl
  have e1 : (key.drop (off + 16)).take 16 = roundKey k 1 := by
    rw [roundKey_first _ _ (by decide), hke, List.drop_take, List.take_take, List.drop_drop]; rfl
  rw [← hke] at hkl ⊢
  unfold aesni_key256_expand
  rw [load_ok (by omega), ok_bind, load_ok (by omega), ok_bind, e0, e1, wr_ok (by omega), ok_bind]
  have h0 : KInv k (2 * 0 + 1) (2 * 0) (2 * 0 + 1) ⟨roundKey k 0, roundKey k 1, List.replicate 16 0, 1, rkeys.set 0 (roundKey k 0)⟩ :=
    ⟨by simpa using hr, fun i hi => by
      obtain rfl : i = 0 := by omega
      rw [getD_set, if_pos ⟨rfl, by omega⟩], rfl, rfl, rfl, ⟨List.replicate 4 0, List.replicate 4 0, List.replicate 4 0, rfl, rfl, rfl, rfl⟩⟩
  refine (BLOCK1_ok hkl (r := 0) (by decide) (by decide) h0).bind fun s h => (BLOCK2_ok hkl (r := 0) (by decide) h).bind fun s h => ?_
  refine (BLOCK1_ok hkl (r := 1) (by decide) (by decide) h).bind fun s h => (BLOCK2_ok hkl (r := 1) (by decide) h).bind fun s h => ?_
  refine (BLOCK1_ok hkl (r := 2) (by decide) (by decide) h).bind fun s h => (BLOCK2_ok hkl (r := 2) (by decide) h).bind fun s h => ?_
  refine (BLOCK1_ok hkl (r := 3) (by decide) (by decide) h).bind fun s h => (BLOCK2_ok hkl (r := 3) (by decide) h).bind fun s h => ?_
  refine (BLOCK1_ok hkl (r := 4) (by decide) (by decide) h).bind fun s h => (BLOCK2_ok hkl (r := 4) (by decide) h).bind fun s h => ?_
  refine (BLOCK1_ok hkl (r := 5) (by decide) (by decide) h).bind fun s h => (BLOCK2_ok hkl (r := 5) (by decide) h).bind fun s h => ?_
  refine (BLOCK1_ok hkl (r := 6) (by decide) (by decide) h).bind fun s h => ?_
  have hl := h.len
  have hx := h.idx
  rw [wr_ok (by omega)]
  refine Ok.pure ⟨by simpa using hl, fun i hi => ?_⟩
  rw [hx]
  exact getD_set_lt (by omega) h.rk h.t0 (by omega)

/-! ### Counters -/

theorem leNat_lt (b : List Byte) : leNat b < 256 ^ b.length := by
  induction b with
  | nil => simp [leNat]
  | cons x t ih =>
    have : leNat (x :: t) = x.toNat + 256 * leNat t := rfl
    rw [this, List.length_cons, Nat.pow_succ]
    have := x.isLt
    omega

theorem beNat_append (a b : List Byte) : beNat (a ++ b) = beNat a * 256 ^ b.length + beNat b := by
  induction b using List.reverseRecOn with
  | nil => simp [beNat]
  | append_singleton t x ih =>
    have : ∀ l : List Byte, beNat (l ++ [x]) = 256 * beNat l + x.toNat := fun l => by simp [beNat]
    rw [← List.append_assoc, this, this, ih, List.length_append, List.length_singleton, Nat.pow_succ]
    ring

theorem beNat_lt (b : List Byte) : beNat b < 256 ^ b.length := by
  induction b using List.reverseRecOn with
  | nil => simp [beNat]
  | append_singleton t x ih =>
    have : ∀ l : List Byte, beNat (l ++ [x]) = 256 * beNat l + x.toNat := fun l => by simp [beNat]
    rw [this, List.length_append, List.length_singleton, Nat.pow_succ]
    have := x.isLt
    omega

theorem leNat_reverse (b : List Byte) : leNat b.reverse = beNat b := by
  simp [leNat, beNat, List.foldr_reverse, add_comm]

theorem length_le64 (x : BitVec 64) : (le64 x).length = 8 := by simp [le64]

theorem leNat_le64 (x : BitVec 64) : leNat (le64 x) = x.toNat := by
  have := x.isLt
  simp [le64, leNat, List.range_succ]
  omega

/-- The two halves of a counter. -/
def pair (a b : BitVec 64) : M128 := le64 a ++ le64 b

theorem length_pair (a b : BitVec 64) : (pair a b).length = 16 := by simp [pair, length_le64]

theorem half0_pair (a b : BitVec 64) : half (pair a b) 0 = a := by
  rw [half, pair, Nat.mul_zero, List.drop_zero, List.take_append_of_le_length (by simp [length_le64]), List.take_of_length_le (by simp [length_le64]), leNat_le64]
  simp

theorem half1_pair (a b : BitVec 64) : half (pair a b) 1 = b := by
  rw [half, pair, Nat.mul_one, List.drop_append_of_le_length (by simp [length_le64]), List.drop_of_length_le (by simp [length_le64]), List.nil_append, List.take_of_length_le (by simp [length_le64]), leNat_le64]
  simp

theorem add_pair (a b c d : BitVec 64) : add_epi64 (pair a b) (set_epi64x d c) = pair (a + c) (b + d) := by
  show le64 (half (pair a b) 0 + half (pair c d) 0) ++ le64 (half (pair a b) 1 + half (pair c d) 1) = _
  rw [half0_pair, half0_pair, half1_pair, half1_pair]; rfl

theorem bswap_pair (a b : BitVec 64) : bswapHalves (pair a b) = be128 (a.toNat * 2 ^ 64 + b.toNat) := by
  have ha := a.isLt
  have hb := b.isLt
  simp only [bswapHalves, pair, be128, le64, List.range_succ, List.range_zero, List.map_cons, List.map_nil, List.nil_append, List.cons_append,
    List.getD_cons_succ, List.getD_cons_zero]
  simp only [List.cons.injEq, and_true]
  and_intros <;> (apply BitVec.eq_of_toNat_eq; simp only [BitVec.toNat_ofNat]; omega)

theorem be128_mod (c : Nat) : be128 (c % 2 ^ 128) = be128 c := by
  unfold be128
  refine List.map_congr_left fun j hj => ?_
  have hj := List.mem_range.1 hj
  apply BitVec.eq_of_toNat_eq
  simp only [BitVec.toNat_ofNat]
  interval_cases j <;> omega

theorem be128_congr {c d : Nat} (h : c % 2 ^ 128 = d % 2 ^ 128) : be128 c = be128 d := by
  rw [← be128_mod, h, be128_mod]

/-! ### Eight blocks -/

theorem shiftRows_map (s : List Byte) (h : s.length = 16) : (shiftRows s).map sbox = shiftRows (s.map sbox) := by
  simp only [shiftRows, List.map_map]
  refine List.map_congr_left fun k hk => ?_
  have := List.mem_range.1 hk
  have hb : k % 4 + 4 * ((k / 4 + k % 4) % 4) < s.length := by omega
  simp only [Function.comp, List.getD_eq_getElem?_getD, List.getElem?_map]
  rw [List.getElem?_eq_getElem hb]; rfl

/-- The counter of block `a` of the eight blocks, from the counter `(H, L)`. -/
def cval (H L : BitVec 64) (a : Nat) : Nat := (H + (if 2 ^ 64 ≤ L.toNat + a then 1 else 0)).toNat * 2 ^ 64 + (L + BitVec.ofNat 64 a).toNat

/-- The higher half of the counter after the eight blocks: the carry is lost if the lower half becomes zero exactly. -/
def nextH (H L : BitVec 64) : BitVec 64 := if 2 ^ 64 < L.toNat + 8 then H + 1 else H

theorem length_rounds (key s : List Byte) (hk : key.length = 32) (hs : s.length = 16) (n : Nat) : (rounds key s n).length = 16 := by
  cases n with
  | zero => exact hs
  | succ n => rw [rounds_succ, length_xors, length_roundKey _ hk]; simp [mixColumns]

theorem store_ok {p : List Byte} {off : Nat} {a : M128} (h : off + 16 ≤ p.length) : store p off a = wrs p off a := by rw [store, if_pos h]

theorem counters8_ok (H L : BitVec 64) :
    counters8 (pair H L) = .ok ((List.range 8).map fun a => be128 (cval H L a), pair (nextH H L) (L + 8)) := by
  unfold counters8
  rw [load_ok (by rw [length_pair]), ok_bind, List.drop_zero, List.take_of_length_le (by rw [length_pair])]
  have hL := L.isLt
  rw [half1_pair]
  have hi := BitVec.toInt_eq_toNat_cond L
  dsimp only
  split
  · rename_i hw
    have hw' : 2 * L.toNat ≥ 2 ^ 64 ∧ L.toNat + 7 ≥ 2 ^ 64 := by
      split at hi <;> omega
    rw [if_neg (by omega)] at hi
    rw [store_ok (by rw [length_pair]), add_pair, wrs_ok _ _ _ (by simp [length_pair]), ok_bind, writeAt_full _ _ (by simp [length_pair])]
    refine congrArg Except.ok (congrArg₂ Prod.mk (List.map_congr_left fun a ha => ?_) ?_)
    · rw [add_pair, bswap_pair, cval]
      have := List.mem_range.1 ha
      have e : (a : Int) ≥ 8 - (L.toInt + 8) ↔ 2 ^ 64 ≤ L.toNat + a := by omega
      simp only [e]
    · rw [nextH, if_pos (by omega)]
  · rename_i hw
    have hw' : L.toNat + 7 < 2 ^ 64 := by
      split at hi <;> omega
    rw [store_ok (by rw [length_pair]), add_pair, wrs_ok _ _ _ (by simp [length_pair]), ok_bind, writeAt_full _ _ (by simp [length_pair])]
    refine congrArg Except.ok (congrArg₂ Prod.mk (List.map_congr_left fun a ha => ?_) ?_)
    · have := List.mem_range.1 ha
      rw [add_pair, bswap_pair, cval, if_neg (by omega)]
    · rw [nextH, if_neg (by omega), show H + 0 = H from BitVec.add_zero H]

theorem encrypt8_ok (key : List Byte) (hk : key.length = 32) (out : List Byte) (ho : out.length = 128) (H L : BitVec 64) (rkeys : List M128)
    (hr : RkOk key rkeys) :
    aesni_encrypt8 out (pair H L) rkeys
      = .ok ((List.range 8).flatMap fun a => aes256 key (be128 (cval H L a)), pair (nextH H L) (L + 8)) := by
  unfold aesni_encrypt8
  rw [counters8_ok, ok_bind]
  dsimp only
  have hl := hr.len
  rw [rd_ok [] (by omega), ok_bind, hr.rk 0 (by decide), List.map_map]
  obtain ⟨t, e, ht⟩ := loop_inv (n := 13) (s := List.map ((fun x => xors x (roundKey key 0)) ∘ fun a => be128 (cval H L a)) (List.range 8))
    (body := fun i temp => do
      let k ← rd rkeys (i + 1)
      pure (temp.map fun t => aesenc t k))
    (fun i t => t = (List.range 8).map fun a => rounds key (xors (be128 (cval H L a)) (roundKey key 0)) i) rfl (by
      rintro i s hi rfl
      rw [rd_ok [] (by omega), ok_bind, hr.rk (i + 1) (by omega)]
      refine Ok.pure ?_
      rw [List.map_map]
      refine List.map_congr_left fun a _ => ?_
      rw [rounds_succ, Function.comp, aesenc, shiftRows_map _ (length_rounds _ _ hk (by rw [length_xors, length_roundKey _ hk]; simp [be128]) _)])
  rw [e, ok_bind, rd_ok [] (by omega), ok_bind, hr.rk 14 (by decide), ht, List.map_map]
  have hlast : List.map ((fun t => aesenclast t (roundKey key 14)) ∘ fun a => rounds key (xors (be128 (cval H L a)) (roundKey key 0)) 13) (List.range 8)
      = (List.range 8).map fun a => aes256 key (be128 (cval H L a)) := by
    refine List.map_congr_left fun a _ => ?_
    rw [Function.comp, aesenclast, shiftRows_map _ (length_rounds _ _ hk (by rw [length_xors, length_roundKey _ hk]; simp [be128]) _)]
    rfl
  rw [hlast, loop_blocks 16 (fun a => aes256 key (be128 (cval H L a))) (fun _ => length_aes256 _ _ hk) 8 out 0 (by omega), ok_bind, writeAt_full]
  · rfl
  · rw [length_flatMap_range 16 _ (fun _ => length_aes256 _ _ hk), ho]
  · intro a o ha hoo
    rw [rd_ok [] (by simpa using ha), ok_bind, getD_map_range _ _ _ _ ha, store_ok (by omega), Nat.zero_add, Nat.mul_comm]

/-! ### The key stream -/

theorem length_ctrBlocks (key : List Byte) (c : Nat → Nat) (n : Nat) (hk : key.length = 32) : (ctrBlocks key c n).length = n := by
  rw [ctrBlocks, List.length_take, length_flatMap_range 16 _ (fun _ => length_aes256 _ _ hk)]; omega

theorem getD_ctrBlocks (key : List Byte) (c : Nat → Nat) (n m : Nat) (hk : key.length = 32) (hm : m < n) :
    (ctrBlocks key c n).getD m 0 = (aes256 key (be128 (c (m / 16)))).getD (m % 16) 0 := by
  rw [ctrBlocks, getD_take _ _ _ _ hm, getD_flatMap_range 16 (by decide) _ (fun _ => length_aes256 _ _ hk) _ _ _ (by omega)]

theorem ctrBlocks_congr (key : List Byte) (c d : Nat → Nat) (n : Nat) (h : ∀ i, 16 * i < n → c i % 2 ^ 128 = d i % 2 ^ 128) :
    ctrBlocks key c n = ctrBlocks key d n := by
  unfold ctrBlocks
  congr 1
  rw [List.flatMap_def, List.flatMap_def]
  congr 1
  refine List.map_congr_left fun i hi => ?_
  have := List.mem_range.1 hi
  rw [be128_congr (h i (by omega))]

/-- The counters that the code encrypts, from the nonce with halves `H` and `L`. -/
def cnt (H L i : Nat) : Nat := if L % 8 = 0 then H * 2 ^ 64 + (L + i) % 2 ^ 64 else H * 2 ^ 64 + L + i

/-- The counter as two 64-bit numbers. -/
def halves (c : Nat) : M128 := pair (BitVec.ofNat 64 (c / 2 ^ 64)) (BitVec.ofNat 64 c)

theorem cnt_form (H L t : Nat) (hL : L < 2 ^ 64) : ∃ q r, r < 2 ^ 64 ∧ cnt H L (8 * t) = q * 2 ^ 64 + r ∧
    (∀ a, a < 8 → cnt H L (8 * t + a) = q * 2 ^ 64 + (r + a)) ∧
    cnt H L (8 * (t + 1)) = (if 2 ^ 64 < r + 8 then q + 1 else q) * 2 ^ 64 + (r + 8) % 2 ^ 64 := by
  unfold cnt
  by_cases h : L % 8 = 0
  · simp only [if_pos h]
    have h8 : (L + 8 * t) % 2 ^ 64 % 8 = 0 := by omega
    have hlt : (L + 8 * t) % 2 ^ 64 < 2 ^ 64 := Nat.mod_lt _ (by decide)
    refine ⟨H, (L + 8 * t) % 2 ^ 64, hlt, rfl, fun a ha => ?_, ?_⟩
    · rw [← Nat.add_assoc, Nat.add_mod, Nat.mod_eq_of_lt (show a < 2 ^ 64 by omega)]
      generalize (L + 8 * t) % 2 ^ 64 = r at *
      rw [Nat.mod_eq_of_lt (by omega)]
    · rw [show L + 8 * (t + 1) = L + 8 * t + 8 by omega, Nat.add_mod, show 8 % 2 ^ 64 = 8 from rfl]
      generalize (L + 8 * t) % 2 ^ 64 = r at *
      rw [if_neg (by omega)]
  · simp only [if_neg h]
    have hlt : (L + 8 * t) % 2 ^ 64 < 2 ^ 64 := Nat.mod_lt _ (by decide)
    have h8 : (L + 8 * t) % 2 ^ 64 % 8 ≠ 0 := by omega
    have e : (L + 8 * t) / 2 ^ 64 * 2 ^ 64 + (L + 8 * t) % 2 ^ 64 = L + 8 * t := Nat.div_add_mod' _ _
    generalize (L + 8 * t) % 2 ^ 64 = r at *
    generalize (L + 8 * t) / 2 ^ 64 = d at *
    have hM : 8 < 2 ^ 64 := by decide
    have hM8 : 2 ^ 64 % 8 = 0 := by decide
    generalize 2 ^ 64 = M at *
    refine ⟨H + d, r, hlt, by rw [Nat.add_mul]; omega, fun a ha => by rw [Nat.add_mul]; omega, ?_⟩
    by_cases h2 : M < r + 8
    · rw [if_pos h2, Nat.add_mul, Nat.add_mul, Nat.mod_eq_sub_mod (by omega), Nat.mod_eq_of_lt (by omega)]
      omega
    · rw [if_neg h2, Nat.add_mul, Nat.mod_eq_of_lt (by omega)]
      omega

theorem halves_form (q r : Nat) (hr : r < 2 ^ 64) : halves (q * 2 ^ 64 + r) = pair (BitVec.ofNat 64 q) (BitVec.ofNat 64 r) := by
  unfold halves
  rw [Nat.mul_comm, Nat.mul_add_div (by decide), Nat.div_eq_of_lt hr, Nat.add_zero]
  congr 1
  apply BitVec.eq_of_toNat_eq
  rw [BitVec.toNat_ofNat, BitVec.toNat_ofNat, Nat.mul_add_mod]

theorem cval_form (q r a : Nat) (hr : r < 2 ^ 64) (ha : a < 8) :
    cval (BitVec.ofNat 64 q) (BitVec.ofNat 64 r) a % 2 ^ 128 = (q * 2 ^ 64 + (r + a)) % 2 ^ 128 := by
  have key : ∀ x y, y < 2 ^ 64 → (x % 2 ^ 64 * 2 ^ 64 + y) % 2 ^ 128 = (x * 2 ^ 64 + y) % 2 ^ 128 := fun x y hy => by
    rw [Nat.add_mod (x % 2 ^ 64 * 2 ^ 64), Nat.add_mod (x * 2 ^ 64), show 2 ^ 128 = 2 ^ 64 * 2 ^ 64 by norm_num, Nat.mul_mod_mul_right, Nat.mul_mod_mul_right, Nat.mod_mod]
  unfold cval
  rw [BitVec.toNat_add, BitVec.toNat_add, BitVec.toNat_ofNat, BitVec.toNat_ofNat, BitVec.toNat_ofNat, Nat.mod_eq_of_lt hr, Nat.mod_eq_of_lt (show a < 2 ^ 64 by omega)]
  by_cases h : 2 ^ 64 ≤ r + a
  · rw [if_pos h, show (1 : BitVec 64).toNat = 1 from rfl, Nat.mod_add_mod, key _ _ (Nat.mod_lt _ (by decide)), Nat.mod_eq_sub_mod h, Nat.mod_eq_of_lt (show r + a - 2 ^ 64 < 2 ^ 64 by omega)]
    rw [show (q + 1) * 2 ^ 64 + (r + a - 2 ^ 64) = q * 2 ^ 64 + (r + a) by
      clear key
      generalize 2 ^ 64 = M at *
      rw [Nat.add_mul]
      omega]
  · rw [if_neg h, show (0 : BitVec 64).toNat = 0 from rfl, Nat.add_zero, Nat.mod_mod, key _ _ (Nat.mod_lt _ (by decide)), Nat.mod_eq_of_lt (show r + a < 2 ^ 64 by omega)]

theorem cval_cnt (H L t a : Nat) (hL : L < 2 ^ 64) (ha : a < 8) :
    cval (BitVec.ofNat 64 (cnt H L (8 * t) / 2 ^ 64)) (BitVec.ofNat 64 (cnt H L (8 * t))) a % 2 ^ 128 = cnt H L (8 * t + a) % 2 ^ 128 := by
  obtain ⟨q, r, hr, h1, h2, _⟩ := cnt_form H L t hL
  rw [h1, h2 a ha, Nat.mul_comm, Nat.mul_add_div (by decide), Nat.div_eq_of_lt hr, Nat.add_zero]
  rw [show BitVec.ofNat 64 (2 ^ 64 * q + r) = BitVec.ofNat 64 r by
    apply BitVec.eq_of_toNat_eq; rw [BitVec.toNat_ofNat, BitVec.toNat_ofNat, Nat.mul_add_mod], Nat.mul_comm]
  exact cval_form q r a hr ha

theorem next_cnt (H L t : Nat) (hL : L < 2 ^ 64) :
    pair (nextH (BitVec.ofNat 64 (cnt H L (8 * t) / 2 ^ 64)) (BitVec.ofNat 64 (cnt H L (8 * t)))) (BitVec.ofNat 64 (cnt H L (8 * t)) + 8)
      = halves (cnt H L (8 * (t + 1))) := by
  obtain ⟨q, r, hr, h1, _, h3⟩ := cnt_form H L t hL
  rw [h3, halves_form _ _ (Nat.mod_lt _ (by decide)), h1, Nat.mul_comm q, Nat.mul_add_div (by decide), Nat.div_eq_of_lt hr, Nat.add_zero]
  rw [show BitVec.ofNat 64 (2 ^ 64 * q + r) = BitVec.ofNat 64 r by
    apply BitVec.eq_of_toNat_eq; rw [BitVec.toNat_ofNat, BitVec.toNat_ofNat, Nat.mul_add_mod]]
  unfold nextH
  rw [BitVec.toNat_ofNat, Nat.mod_eq_of_lt hr]
  congr 1
  · by_cases h : 2 ^ 64 < r + 8
    · rw [if_pos h, if_pos h]
      apply BitVec.eq_of_toNat_eq
      rw [BitVec.toNat_add, BitVec.toNat_ofNat, BitVec.toNat_ofNat, show (1 : BitVec 64).toNat = 1 from rfl, Nat.mod_add_mod]
    · rw [if_neg h, if_neg h]
  · apply BitVec.eq_of_toNat_eq
    rw [BitVec.toNat_add, BitVec.toNat_ofNat, BitVec.toNat_ofNat, show (8 : BitVec 64).toNat = 8 from rfl, Nat.mod_add_mod, Nat.mod_mod]

theorem le64_ofNat_beNat (b : List Byte) (h : b.length = 8) : le64 (BitVec.ofNat 64 (beNat b)) = b.reverse := by
  rcases b with _ | ⟨b0, _ | ⟨b1, _ | ⟨b2, _ | ⟨b3, _ | ⟨b4, _ | ⟨b5, _ | ⟨b6, _ | ⟨b7, _ | ⟨b8, t⟩⟩⟩⟩⟩⟩⟩⟩⟩ <;> simp at h
  have h0 := b0.isLt
  have h1 := b1.isLt
  have h2 := b2.isLt
  have h3 := b3.isLt
  have h4 := b4.isLt
  have h5 := b5.isLt
  have h6 := b6.isLt
  have h7 := b7.isLt
  simp only [le64, beNat, List.foldl_cons, List.foldl_nil, List.range_succ, List.range_zero, List.nil_append, List.cons_append, List.map_cons, List.map_nil,
    List.reverse_cons, List.reverse_nil, List.cons.injEq, and_true]
  and_intros <;> (apply BitVec.eq_of_toNat_eq; simp only [BitVec.toNat_ofNat]; omega)

theorem wrs_one {α : Type} (a : List α) (i : Nat) (v : α) : wrs a i [v] = wr a i v := by
  show (wr a i v >>= fun a' => .ok a') = _
  cases wr a i v <;> rfl

theorem loadNonce_ok (n2 n : List Byte) (h2 : n2.length = 16) (h : n.length = 16) :
    loadNonce n2 n = .ok (pair (BitVec.ofNat 64 (beNat (n.take 8))) (BitVec.ofNat 64 (beNat (n.drop 8)))) := by
  rw [pair, le64_ofNat_beNat _ (by simp; omega), le64_ofNat_beNat _ (by simp; omega)]
  unfold loadNonce
  rw [loop_blocks 1 (fun i => [n.getD (7 - i) 0]) (fun _ => rfl) 8 n2 0 (by omega), ok_bind, flatMap_singleton_eq_map]
  · rw [loop_blocks 1 (fun i => [n.getD (15 - i) 0]) (fun _ => rfl) 8 _ 8 (by rw [length_writeAt _ _ _ (by simp; omega)]; omega), flatMap_singleton_eq_map]
    · rcases n with _ | ⟨b0, _ | ⟨b1, _ | ⟨b2, _ | ⟨b3, _ | ⟨b4, _ | ⟨b5, _ | ⟨b6, _ | ⟨b7, n⟩⟩⟩⟩⟩⟩⟩⟩ <;> simp at h
      rcases n with _ | ⟨b8, _ | ⟨b9, _ | ⟨b10, _ | ⟨b11, _ | ⟨b12, _ | ⟨b13, _ | ⟨b14, _ | ⟨b15, _ | ⟨b16, t⟩⟩⟩⟩⟩⟩⟩⟩⟩ <;> simp at h
      have hd : n2.drop 16 = [] := List.drop_of_length_le (by omega)
      simp [writeAt, List.range_succ, hd]
    · intro j a hj ha
      rw [length_writeAt _ _ _ (by simp; omega)] at ha
      rw [rd_ok 0 (by omega), ok_bind, show 23 - (j + 8) = 15 - j by omega, Nat.add_comm j 8, Nat.one_mul, wrs_one]
  · intro j a hj ha
    rw [rd_ok 0 (by omega), ok_bind, Nat.zero_add, Nat.one_mul, wrs_one]

/-- The two halves of a nonce. -/
theorem beNat_halves (n : List Byte) (h : n.length = 16) :
    beNat n = beNat (n.take 8) * 2 ^ 64 + beNat (n.drop 8) ∧ beNat (n.take 8) < 2 ^ 64 ∧ beNat (n.drop 8) < 2 ^ 64 := by
  refine ⟨?_, ?_, ?_⟩
  · have := beNat_append (n.take 8) (n.drop 8)
    rw [List.take_append_drop, List.length_drop, h] at this
    exact this
  · have := beNat_lt (n.take 8)
    rw [List.length_take, h] at this
    exact this
  · have := beNat_lt (n.drop 8)
    rw [List.length_drop, h] at this
    exact this

/-- `crypto_stream_aes256ctr` -/
theorem stream_ok (out : List Byte) (outOff outlen : Nat) (n k : List Byte) (kOff : Nat) (ho : outOff + outlen ≤ out.length) (hn : n.length = 16)
    (hk : kOff + 32 ≤ k.length) :
    crypto_stream_aes256ctr out outOff outlen n k kOff
      = .ok (writeAt out outOff (ctrBlocks ((k.drop kOff).take 32) (cnt (beNat (n.take 8)) (beNat (n.drop 8))) outlen)) := by
  have hkl : ((k.drop kOff).take 32).length = 32 := by simp; omega
  obtain ⟨_, hH, hL⟩ := beNat_halves n hn
  unfold crypto_stream_aes256ctr
  obtain ⟨rkeys, e, hr⟩ := expand_ok k kOff (uninitM128 100 16) hk (by simp [uninitM128])
  rw [e, ok_bind, loadNonce_ok _ _ (length_uninit _ _ _) hn, ok_bind]
  generalize (k.drop kOff).take 32 = key at *
  generalize beNat (n.take 8) = H at *
  generalize beNat (n.drop 8) = L at *
  obtain ⟨⟨o, n2⟩, e, h1, h2⟩ := loop_inv (n := (outlen + 127) / 128) (s := (out, pair (BitVec.ofNat 64 H) (BitVec.ofNat 64 L)))
    (body := fun t ⟨out, n2⟩ => do
      let i := 128 * t
      let ⟨outni, n2⟩ ← aesni_encrypt8 (uninit 8 121 128) n2 rkeys
      let mj := if i + 128 ≥ outlen then outlen - i else 128
      let out ← loop mj out fun j out => do
        let x ← rd outni j
        wr out (outOff + (i + j)) x
      pure (out, n2))
    (fun t (r : List Byte × List Byte) => r.1 = writeAt out outOff (ctrBlocks key (cnt H L) (min outlen (128 * t))) ∧ r.2 = halves (cnt H L (8 * t)))
    ⟨by simp [ctrBlocks], by
      have e : cnt H L (8 * 0) = H * 2 ^ 64 + L := by
        unfold cnt
        rw [Nat.mul_zero, Nat.add_zero, Nat.add_zero, Nat.mod_eq_of_lt hL, ite_self]
      dsimp only
      rw [e, halves_form _ _ hL]⟩ (by
    rintro t ⟨o, n2⟩ ht ⟨h1, h2⟩
    dsimp only at h1 h2
    subst h1 h2
    dsimp only
    rw [halves, encrypt8_ok key hkl _ (length_uninit _ _ _) _ _ rkeys hr, ok_bind]
    dsimp only
    have hmin : min outlen (128 * t) = 128 * t := by omega
    rw [hmin]
    have hlen : (ctrBlocks key (cnt H L) (128 * t)).length = 128 * t := length_ctrBlocks _ _ _ hkl
    obtain ⟨mj, hmj⟩ : ∃ mj, mj = if 128 * t + 128 ≥ outlen then outlen - 128 * t else 128 := ⟨_, rfl⟩
    rw [← hmj]
    have hmj2 : mj ≤ 128 ∧ 128 * t + mj = min outlen (128 * (t + 1)) := by
      rw [hmj]; split <;> omega
    obtain ⟨outni, hout⟩ : ∃ x, x = (List.range 8).flatMap fun a => aes256 key (be128 (cval (BitVec.ofNat 64 (cnt H L (8 * t) / 2 ^ 64)) (BitVec.ofNat 64 (cnt H L (8 * t))) a)) := ⟨_, rfl⟩
    rw [← hout]
    have hol : outni.length = 128 := by rw [hout, length_flatMap_range 16 _ (fun _ => length_aes256 _ _ hkl)]
    rw [loop_blocks 1 (fun j => [outni.getD j 0]) (fun _ => rfl) mj _ (outOff + 128 * t) (by rw [length_writeAt _ _ _ (by omega)]; omega),
      flatMap_singleton_eq_map, ok_bind]
    · refine Ok.pure ⟨?_, next_cnt H L t hL⟩
      have := writeAt_append out outOff (ctrBlocks key (cnt H L) (128 * t)) ((List.range mj).map fun j => outni.getD j 0) (by simp; omega)
      rw [hlen] at this
      dsimp only
      rw [this]
      congr 1
      apply ext_getD 0
      · rw [List.length_append, hlen, List.length_map, List.length_range, length_ctrBlocks _ _ _ hkl]; omega
      · intro m hm
        rw [List.length_append, hlen, List.length_map, List.length_range] at hm
        rw [getD_ctrBlocks _ _ _ _ hkl (by omega)]
        by_cases h : m < 128 * t
        · rw [List.getD_append _ _ _ _ (by omega), getD_ctrBlocks _ _ _ _ hkl h]
        · rw [List.getD_append_right _ _ _ _ (by omega), hlen, getD_map_range _ _ _ _ (by omega), hout,
            getD_flatMap_range 16 (by decide) _ (fun _ => length_aes256 _ _ hkl) _ _ _ (by omega),
            be128_congr (cval_cnt H L t _ hL (by omega)), show 8 * t + (m - 128 * t) / 16 = m / 16 by omega, show (m - 128 * t) % 16 = m % 16 by omega]
    · intro j a hj ha
      rw [length_writeAt _ _ _ (by omega)] at ha
      rw [rd_ok 0 (by omega), ok_bind, show outOff + (128 * t + j) = outOff + 128 * t + 1 * j by omega, wrs_one])
  rw [e, ok_bind]
  dsimp only at h1
  rw [h1, show min outlen (128 * ((outlen + 127) / 128)) = outlen by omega]
  rfl

/-- `saber_aes256ctr_prf`: the counter of 128 bits that starts at zero and the counter of 32 bits with a nonce of 12 zero bytes are the
same for the first `2^32` blocks. -/
theorem prf_ok (out : List Byte) (outOff outlen : Nat) (k : List Byte) (kOff : Nat) (ho : outOff + outlen ≤ out.length) (hk : kOff + 32 ≤ k.length)
    (hl : outlen ≤ 2 ^ 36) :
    saber_aes256ctr_prf out outOff outlen k kOff = .ok (writeAt out outOff (ctr ((k.drop kOff).take 32) (List.replicate 12 0) outlen)) := by
  unfold saber_aes256ctr_prf
  rw [stream_ok out outOff outlen _ k kOff ho (by simp) hk]
  congr 2
  unfold ctrBlocks ctr
  congr 1
  rw [List.flatMap_def, List.flatMap_def]
  congr 1
  refine List.map_congr_left fun i hi => ?_
  have hi := List.mem_range.1 hi
  congr 1
  have e : cnt (beNat ((List.replicate 16 (0 : Byte)).take 8)) (beNat ((List.replicate 16 (0 : Byte)).drop 8)) i = i := by
    have e1 : beNat ((List.replicate 16 (0 : Byte)).take 8) = 0 := by decide
    have e2 : beNat ((List.replicate 16 (0 : Byte)).drop 8) = 0 := by decide
    rw [e1, e2, cnt, if_pos rfl]
    omega
  rw [e]
  simp only [be128, be32, List.range_succ, List.range_zero, List.nil_append, List.cons_append, List.map_cons, List.map_nil, List.replicate_succ, List.replicate_zero,
    List.cons.injEq, and_true]
  and_intros <;> first | trivial | (apply BitVec.eq_of_toNat_eq; simp only [BitVec.toNat_ofNat, show (0 : Byte).toNat = 0 from rfl]; omega)

end Saber.Avx.AesNi

import Verif.Proof.M0.Fips202
import Verif.Model.M0.Poly
import Verif.Proof.Cbd
/-!
# Consuming a SHAKE128 stream through a small buffer
-/
namespace Saber.M0
open Saber Spec Spec.Keccak

variable [Spec.Keccak.Permutation] [StatePermute] [Permutes]

omit [Permutation] [StatePermute] [Permutes] in
theorem getD_writeAt {α : Type} (a : List α) (off : Nat) (vs : List α) (d : α) (h : off + vs.length ≤ a.length) (i : Nat) :
    (writeAt a off vs).getD i d = if off ≤ i ∧ i < off + vs.length then vs.getD (i - off) d else a.getD i d := by
  unfold writeAt
  have hl : (a.take off).length = off := by simp; omega
  by_cases h1 : i < off
  · rw [if_neg (by omega), List.append_assoc, List.getD_append _ _ _ _ (by omega), getD_take _ _ _ _ h1]
  · by_cases h2 : i < off + vs.length
    · rw [if_pos (by omega), List.getD_append _ _ _ _ (by simp; omega), List.getD_append_right _ _ _ _ (by omega), hl]
    · rw [if_neg (by omega), List.getD_append_right _ _ _ _ (by simp; omega), getD_drop, List.length_append, hl]
      congr 1; omega

omit [Permutation] [StatePermute] [Permutes] in
/-- A forward copy to the start of the buffer. -/
theorem shiftLoop_ok (n cnt : Nat) (buf : List Byte) (h : n + cnt ≤ buf.length) :
    Ok (loop cnt buf fun i buf => do
      let v ← rd buf (n + i)
      wr buf i v) fun b => b.length = buf.length ∧ ∀ i, i < cnt → b.getD i 0 = buf.getD (n + i) 0 := by
  refine (loop_inv (fun k (b : List Byte) => b.length = buf.length ∧ (∀ i, i < k → b.getD i 0 = buf.getD (n + i) 0) ∧
    ∀ i, k ≤ i → b.getD i 0 = buf.getD i 0) ⟨rfl, fun i hi => by omega, fun i _ => rfl⟩ ?_).mono fun b hb => ⟨hb.1, hb.2.1⟩
  rintro k b hk ⟨h1, h2, h3⟩
  rw [rd_ok 0 (by omega), ok_bind, wr_ok (by omega)]
  refine Ok.pure ⟨by rw [List.length_set]; exact h1, fun i hi => ?_, fun i hi => ?_⟩
  · rw [getD_set]
    by_cases e : k = i
    · subst e; rw [if_pos ⟨rfl, by omega⟩, h3 _ (by omega)]
    · rw [if_neg (by tauto), h2 i (by omega)]
  · rw [getD_set, if_neg (by omega), h3 i (by omega)]

/-- The first `n` bytes of the buffer are the bytes of `T` from position `p`. -/
def Win (buf T : List Byte) (p n : Nat) : Prop := ∀ i, i < n → buf.getD i 0 = T.getD (p + i) 0

omit [Permutation] [StatePermute] [Permutes] in
theorem Win.shift {buf T : List Byte} {p m : Nat} (hw : Win buf T p m) (n cnt : Nat) (hc : n + cnt ≤ m) (hb : m ≤ buf.length) :
    Ok (loop cnt buf fun i buf => do
      let v ← rd buf (n + i)
      wr buf i v) fun b => b.length = buf.length ∧ Win b T (p + n) cnt := by
  refine (shiftLoop_ok n cnt buf (by omega)).mono fun b hb' => ⟨hb'.1, fun i hi => ?_⟩
  rw [hb'.2 i hi, hw _ (by omega)]
  congr 1; omega

/-- The state after `Z` blocks have been squeezed. -/
def SqState (s0 : List (BitVec 64)) (Z : Nat) (s : List (BitVec 64)) : Prop :=
  s.length = 25 ∧ bitsOfLanes s = keccakF^[Z] (bitsOfLanes s0)

/-- The first `M` blocks of output. -/
def sqStream (s0 : List (BitVec 64)) (M : Nat) : List Byte := sqBytes 168 (keccakF (bitsOfLanes s0)) M

omit [StatePermute] [Permutes] in
theorem length_sqStream (s0 : List (BitVec 64)) (M : Nat) : (sqStream s0 M).length = 168 * M :=
  length_sqBytes 168 (by omega) _ (length_keccakF _) M

theorem SqState.squeeze {s0 s : List (BitVec 64)} {Z M left p : Nat} {buf : List Byte} (hs : SqState s0 Z s)
    (hw : Win buf (sqStream s0 M) p left) (hp : p + left = 168 * Z) (hZ : Z < M) (hb : left + 168 ≤ buf.length) :
    Ok (keccak_squeezeblocks buf left 1 s SHAKE128_RATE) fun o => o.1.length = buf.length ∧
      Win o.1 (sqStream s0 M) p (left + 168) ∧ SqState s0 (Z + 1) o.2 := by
  refine (squeezeblocks_ok buf left 1 s 168 (by omega) (by omega) hs.1 (by omega)).mono ?_
  rintro ⟨b, s'⟩ ⟨h1, h2, h3⟩
  simp only at h1 h2 h3 ⊢
  have hS : (keccakF (bitsOfLanes s0)).length = 1600 := length_keccakF _
  have hl := length_sqBytes 168 (by omega) (keccakF (bitsOfLanes s)) (length_keccakF _) 1
  refine ⟨by rw [h1, length_writeAt _ _ _ (by omega)], fun i hi => ?_, h2, ?_⟩
  · rw [h1, getD_writeAt _ _ _ _ (by omega)]
    by_cases h : i < left
    · rw [if_neg (by omega), hw i h]
    · rw [if_pos (by omega)]
      unfold sqStream sqBytes
      rw [getD_flatMap_range 168 (by omega) _ (length_sqBlock 168 (by omega) _ (length_keccakF _)) 0 1 _ (by omega),
        getD_flatMap_range 168 (by omega) _ (length_sqBlock 168 (by omega) _ hS) 0 M _ (by omega), hs.2,
        show (i - left) / 168 = 0 by omega, show (p + i) / 168 = Z by omega, show (i - left) % 168 = (p + i) % 168 by omega,
        ← Function.iterate_succ_apply' keccakF, Function.iterate_succ_apply]
      rfl
  · rw [h3, hs.2, Function.iterate_one, Function.iterate_succ_apply']

/-- Absorbing the 32-byte seed. -/
theorem absorb_seed (s : List (BitVec 64)) (hs : s.length = 25) (seed : List Byte) (off : Nat) (h : off + 32 ≤ seed.length) :
    Ok (do let s ← zeroState s
           keccak_absorb s SHAKE128_RATE seed off SEEDBYTES 0x1F) fun s0 => s0.length = 25 ∧
      ∀ n M, n ≤ 168 * M → Keccak.shake128 ((seed.drop off).take 32) n = (sqStream s0 M).take n := by
  rw [zeroState_ok s hs, ok_bind]
  refine (keccak_absorb_m0 _ List.length_replicate 168 (by omega) (by omega) (by omega) seed off 32 h _ _ sepByte_shake).mono ?_
  rintro s0 ⟨h1, h2⟩
  refine ⟨h1, fun n M hn => ?_⟩
  rw [Keccak.shake128, show 1600 - 256 = 8 * 168 from rfl, sponge_bytes 168 (by omega) (by omega) _ n M hn, sqStream, h2]

/-! ### Noise sampling -/

/-- One secret coefficient, reduced modulo `q`, from one byte. -/
def cbyte (b : Byte) : BitVec 16 := BitVec.ofInt 16
  (((hammingWeight 4 fun j => b.getLsbD j : Int) - (hammingWeight 4 fun j => b.getLsbD (4 + j) : Int)) % 8192)

omit [Permutation] [StatePermute] [Permutes] in
theorem and_mask13 (x : Int) : BitVec.ofInt 16 x &&& (8191 : BitVec 16) = BitVec.ofInt 16 (x % 8192) := by
  apply BitVec.eq_of_toNat_eq
  rw [BitVec.toNat_and]
  have : (8191 : BitVec 16).toNat = 2 ^ 13 - 1 := rfl
  rw [this, Nat.and_two_pow_sub_one_eq_mod, BitVec.toNat_ofInt, BitVec.toNat_ofInt]
  omega

omit [Permutation] [StatePermute] [Permutes] in
theorem load32_ok (x : List Byte) (off : Nat) (h : off + 4 ≤ x.length) :
    Ok (load_littleendian x off 4) fun r => ∀ k, k < 32 → r.getLsbD k = bitAt x (8 * off + k) := by
  unfold load_littleendian
  rw [rd_ok 0 (by omega), ok_bind]
  have key := loop_inv (n := 4 - 1) (s := (x.getD off 0).setWidth 32)
    (body := fun i r => do
      let v ← rd x (off + (i + 1))
      pure (r ||| (v.setWidth 32 <<< (8 * (i + 1)))))
    (fun i (r : BitVec 32) => ∀ k, k < 32 → r.getLsbD k = (decide (k < 8 * (i + 1)) && bitAt x (8 * off + k))) ?_ ?_
  · refine key.mono fun r hr k hk => ?_
    rw [hr k hk]
    have : k < 8 * (4 - 1 + 1) := by omega
    simp [this]
  · intro k hk
    rw [BitVec.getLsbD_setWidth]
    by_cases h8 : k < 8
    · simp only [hk, h8, bitAt, decide_true, Bool.true_and, Nat.zero_add, Nat.mul_one]
      rw [show (8 * off + k) / 8 = off by omega, show (8 * off + k) % 8 = k by omega]
    · rw [BitVec.getLsbD_of_ge _ _ (by omega)]; simp [h8]
  · intro i r hi hr
    rw [rd_ok 0 (by omega), ok_bind]
    refine Ok.pure ?_
    intro k hk
    rw [BitVec.getLsbD_or, hr k hk, BitVec.getLsbD_shiftLeft, BitVec.getLsbD_setWidth]
    by_cases h1 : k < 8 * (i + 1)
    · have : k < 8 * (i + 1 + 1) := by omega
      simp [h1, this]
    · by_cases h2 : k < 8 * (i + 1 + 1)
      · simp only [h1, h2, hk, bitAt, decide_true, decide_false, Bool.false_and, Bool.true_and, Bool.false_or, Bool.not_false,
          show k - 8 * (i + 1) < 32 by omega]
        rw [show (8 * off + k) / 8 = off + (i + 1) by omega, show (8 * off + k) % 8 = k - 8 * (i + 1) by omega]
      · rw [BitVec.getLsbD_of_ge _ (k - 8 * (i + 1)) (by omega)]
        simp [h1, h2]

omit [Permutation] [StatePermute] [Permutes] in
theorem cbdBlk_load (x : List Byte) (off : Nat) (t : BitVec 32) (ht : ∀ k, k < 32 → t.getLsbD k = bitAt x (8 * off + k)) :
    cbdBlk t = (List.range 4).map fun r => cbyte (x.getD (off + r) 0) := by
  unfold cbdBlk
  rw [cbdBlk8_eq, List.map_map]
  apply List.map_congr_left
  intro r hr
  have hr := List.mem_range.mp hr
  have hb : ∀ n, n < 8 → t.toNat.testBit (8 * r + n) = (x.getD (off + r) 0).getLsbD n := by
    intro n hn
    rw [BitVec.testBit_toNat, ht _ (by omega), bitAt, show (8 * off + (8 * r + n)) / 8 = off + r by omega,
      show (8 * off + (8 * r + n)) % 8 = n by omega]
  have e1 : hwg 4 t.toNat (2 * r) = hammingWeight 4 fun j => (x.getD (off + r) 0).getLsbD j := by
    unfold hwg
    refine hammingWeight_congr fun j hj => ?_
    rw [← hb j (by omega)]; congr 1; omega
  have e2 : hwg 4 t.toNat (2 * r + 1) = hammingWeight 4 fun j => (x.getD (off + r) 0).getLsbD (4 + j) := by
    unfold hwg
    refine hammingWeight_congr fun j hj => ?_
    rw [← hb (4 + j) (by omega)]; congr 1; omega
  rw [Function.comp_apply, and_mask13, e1, e2, cbyte]

/-- Secret coefficients from consecutive bytes of a stream. -/
def noiseRow (T : List Byte) (p n : Nat) : List (BitVec 16) := (List.range n).map fun i => cbyte (T.getD (p + i) 0)

omit [Permutation] [StatePermute] [Permutes] in
@[simp] theorem length_noiseRow (T : List Byte) (p n : Nat) : (noiseRow T p n).length = n := by simp [noiseRow]

omit [Permutation] [StatePermute] [Permutes] in
theorem noiseRow_append (T : List Byte) (p n m : Nat) : noiseRow T p n ++ noiseRow T (p + n) m = noiseRow T p (n + m) := by
  unfold noiseRow
  rw [List.range_add, List.map_append, List.map_map]
  congr 1
  apply List.map_congr_left
  intro i _
  rw [Function.comp_apply, Nat.add_assoc]

omit [Permutation] [StatePermute] [Permutes] in
theorem cbd_m0 (start : Nat) (r : List (BitVec 16)) (n : Nat) (buf T : List Byte) (p : Nat) (hw : Win buf T p (4 * n))
    (hb : 4 * n ≤ buf.length) (hr : start + 4 * n ≤ r.length) :
    cbd start r (4 * n) buf 0 = .ok (writeAt r start (noiseRow T p (4 * n))) := by
  unfold cbd
  rw [Nat.mul_div_cancel_left _ (by omega)]
  rw [loop_blocks 4 (fun i => (List.range 4).map fun k => cbyte (T.getD (p + (4 * i + k)) 0)) (fun _ => by simp) n r start hr]
  · congr 2
    apply ext_getD 0
    · rw [length_flatMap_range 4 _ (fun _ => by simp)]; simp
    · intro m hm
      rw [length_flatMap_range 4 _ (fun _ => by simp)] at hm
      rw [getD_flatMap_range 4 (by omega) _ (fun _ => by simp) 0 n m hm, getD_map_range _ _ _ _ (by omega), noiseRow,
        getD_map_range _ _ _ _ hm]
      congr 3; omega
  · intro j a' hj _
    obtain ⟨t, e, ht⟩ := load32_ok buf (0 + 4 * j) (by omega)
    rw [e, ok_bind, cbdBlk_load buf _ t ht, Nat.add_comm (4 * j)]
    congr 1
    apply List.map_congr_left
    intro k hk
    have hk := List.mem_range.mp hk
    rw [Nat.zero_add, hw _ (by omega)]

omit [Permutation] [StatePermute] [Permutes] in
theorem noiseRow_eq (T : List Byte) (p : Nat) :
    noiseRow T p 256 = ofP fun k => centredBinomial 8 (T.drop p) k % 8192 := by
  unfold noiseRow ofP
  apply List.map_congr_left
  intro i hi
  have hi := List.mem_range.mp hi
  have hv : (Fin.ofNat 256 i).val = i := Nat.mod_eq_of_lt hi
  unfold cbyte centredBinomial
  congr 2
  simp only [bitAt_drop, hv]
  congr 2
  · refine hammingWeight_congr fun j hj => ?_
    have hj : j < 4 := hj
    rw [bitAt, show (8 * p + (8 * i + j)) / 8 = p + i by omega, show (8 * p + (8 * i + j)) % 8 = j by omega]
  · refine hammingWeight_congr fun j hj => ?_
    have hj : j < 4 := hj
    rw [bitAt, show (8 * p + (8 * i + 8 / 2 + j)) / 8 = p + i by omega, show (8 * p + (8 * i + 8 / 2 + j)) % 8 = 4 + j by omega]

end Saber.M0

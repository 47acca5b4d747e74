import Verif.Props.Pack
import Mathlib.Data.Nat.Choose.Basic
/-!
# Properties of the samplers: C20 to C22
-/
namespace Saber.Props
open Spec

/-- Parameter `MU` of the binomial distribution. -/
def muOf : PSet → Nat
  | .light => 10
  | .saber => 8
  | .fire => 6

theorem muOf_eq (P : PSet) : muOf P = P.MU := by cases P <;> rfl

/-- Hamming weight of the low half minus Hamming weight of the high half of a `mu`-bit pattern. -/
def patternValue (mu w : Nat) : Int :=
  (hammingWeight (mu / 2) fun j => w.testBit j : Int) - (hammingWeight (mu / 2) fun j => w.testBit (mu / 2 + j) : Int)

theorem centredBinomial_pattern (mu : Nat) (hmu : mu % 2 = 0) (bs : List Byte) (i : Fin 256) :
    centredBinomial mu bs i = patternValue mu (natOfBits mu fun j => bitAt bs (mu * i.val + j)) := by
  unfold centredBinomial patternValue
  congr 2
  · apply hammingWeight_congr
    intro j hj
    rw [natOfBits_testBit]
    have : j < mu := by omega
    simp [this]
  · apply hammingWeight_congr
    intro j hj
    rw [natOfBits_testBit]
    have : mu / 2 + j < mu := by omega
    simp [this, Nat.add_assoc]

/-- C20: coefficient `i` of a sample is the value of the `i`-th piece of `MU` bits; it is stored in two's complement and lies in
`[-MU/2, MU/2]`. -/
theorem C20_cbd (P : PSet) (s : List (BitVec 16)) (buf : List Byte) (off : Nat) (hs : s.length = 256) (hb : off + 32 * muOf P ≤ buf.length) :
    ∃ r, cbd P s buf off = .ok r ∧ r.length = 256 ∧ ∀ i, i < 256 →
      (r.getD i 0).toInt = patternValue (muOf P) (natOfBits (muOf P) fun j => bitAt buf (8 * off + muOf P * i + j)) ∧
      -(muOf P / 2 : Int) ≤ (r.getD i 0).toInt ∧ (r.getD i 0).toInt ≤ (muOf P / 2 : Int) := by
  rw [muOf_eq] at *
  have hc : P.POLYCOINBYTES = 32 * P.MU := by cases P <;> rfl
  refine ⟨_, cbd_ok P s buf off hs (by omega), by simp, fun i hi => ?_⟩
  rw [ofP, getD_map_range _ _ _ _ hi]
  have hr := centredBinomial_range P.MU (buf.drop off) (Fin.ofNat 256 i)
  have hmu : P.MU / 2 ≤ 5 ∧ P.MU % 2 = 0 := by cases P <;> decide
  have e : (BitVec.ofInt 16 (centredBinomial P.MU (buf.drop off) (Fin.ofNat 256 i))).toInt
      = centredBinomial P.MU (buf.drop off) (Fin.ofNat 256 i) := by
    rw [BitVec.toInt_ofInt]
    apply Int.bmod_eq_of_le <;> omega
  rw [e]
  refine ⟨?_, by omega, by omega⟩
  rw [centredBinomial_pattern _ hmu.2]
  congr 1
  apply natOfBits_congr
  intro j _
  rw [bitAt_drop, Fin.val_ofNat, Nat.mod_eq_of_lt hi, ← Nat.add_assoc]

/-- C20: the value `v` is produced by exactly `binomial(MU, MU/2 + v)` of the `2^MU` patterns. -/
theorem C20_distribution (P : PSet) (v : Int) :
    ((List.range (2 ^ muOf P)).filter fun w => patternValue (muOf P) w = v).length =
      if -(muOf P / 2 : Int) ≤ v ∧ v ≤ (muOf P / 2 : Int) then Nat.choose (muOf P) ((muOf P / 2 : Int) + v).toNat else 0 := by
  have hmu : muOf P / 2 ≤ 5 := by cases P <;> decide
  have out : ∀ w, -((muOf P / 2 : Nat) : Int) ≤ patternValue (muOf P) w ∧ patternValue (muOf P) w ≤ ((muOf P / 2 : Nat) : Int) := by
    intro w
    unfold patternValue
    have h1 := hammingWeight_le (muOf P / 2) fun j => w.testBit j
    have h2 := hammingWeight_le (muOf P / 2) fun j => w.testBit (muOf P / 2 + j)
    omega
  by_cases h : -(muOf P / 2 : Int) ≤ v ∧ v ≤ (muOf P / 2 : Int)
  · rw [if_pos h]
    obtain ⟨h1, h2⟩ := h
    have key : ∀ n, n < 2 * (muOf P / 2) + 1 →
        ((List.range (2 ^ muOf P)).filter fun w => patternValue (muOf P) w = (n : Int) - (muOf P / 2 : Int)).length
          = Nat.choose (muOf P) n := by
      cases P <;> decide +kernel
    have := key (v + (muOf P / 2 : Int)).toNat (by omega)
    rw [show (((v + (muOf P / 2 : Int)).toNat : Nat) : Int) - (muOf P / 2 : Int) = v by omega] at this
    rw [this, Int.add_comm]
  · rw [if_neg h, List.length_eq_zero_iff, List.filter_eq_nil_iff]
    intro w _ hw
    have := out w
    simp only [decide_eq_true_eq] at hw
    apply h
    omega

/-- The sample of an all-ones byte string is zero, that of an all-ones first half `MU/2`. -/
example : patternValue 8 0xFF = 0 ∧ patternValue 8 0x0F = 4 ∧ patternValue 8 0xF0 = -4 ∧ patternValue 10 0x1F = 5 := by decide

/-- C21: coefficient `k` of entry `(i, j)` of the public matrix is the 13-bit number at bit `13 (256 (i L + j) + k)` of the SHAKE128
stream; distinct coefficients use disjoint bits because `13 (256 (i L + j) + k)` is injective with gaps of 13. -/
theorem C21_GenMatrix (P : PSet) (A : List (List (List (BitVec 16)))) (hA : IsMat P.L A) (seed : List Byte) (hs : seed.length = 32) :
    ∃ A', GenMatrix P A seed 0 = .ok A' ∧ IsMat P.L A' ∧ ∀ i j : Fin P.L, ∀ k : Fin 256,
      toM P.L A' i j k = (natOfBits 13 fun b =>
        bitAt (Keccak.shake128 seed (P.L * P.L * 416)) (13 * (256 * (i.val * P.L + j.val) + k.val) + b) : Nat) ∧
      0 ≤ toM P.L A' i j k ∧ toM P.L A' i j k < 8192 := by
  refine ⟨_, GenMatrix_ok P A hA seed 0 (by omega), isMat_ofM _, fun i j k => ?_⟩
  rw [toM_ofM, toP_ofP, List.drop_zero, List.take_of_length_le (by omega)]
  have hr := unpack_range 13 ((Keccak.shake128 seed (P.L * P.L * 416)).drop ((i.val * P.L + j.val) * 416)) k
  have e : unpack 13 ((Keccak.shake128 seed (P.L * P.L * 416)).drop ((i.val * P.L + j.val) * 416)) k % 65536
      = unpack 13 ((Keccak.shake128 seed (P.L * P.L * 416)).drop ((i.val * P.L + j.val) * 416)) k := by omega
  rw [e]
  refine ⟨?_, by omega, by omega⟩
  unfold unpack
  refine congrArg (Nat.cast (R := Int)) (natOfBits_congr fun b _ => ?_)
  rw [bitAt_drop]
  congr 1
  ring

/-- C22: coefficient `k` of polynomial `i` of the secret is the binomial sample of the `MU` bits at bit `MU (256 i + k)` of the SHAKE128
stream. -/
theorem C22_GenSecret (P : PSet) (s : List (List (BitVec 16))) (hv : IsVec P.L s) (seed : List Byte) (hs : seed.length = 32) :
    ∃ s', GenSecret P s seed 0 = .ok s' ∧ IsVec P.L s' ∧ ∀ i : Fin P.L, ∀ k, k < 256 →
      (((s'.getD i.val []).getD k 0).toInt) = patternValue (muOf P) (natOfBits (muOf P) fun b =>
        bitAt (Keccak.shake128 seed (P.L * muOf P * 32)) (muOf P * (256 * i.val + k) + b)) := by
  rw [muOf_eq]
  refine ⟨_, GenSecret_ok P s hv seed 0 (by omega), isVec_ofV _, fun i k hk => ?_⟩
  rw [List.drop_zero, List.take_of_length_le (by omega)]
  generalize Keccak.shake128 seed (P.L * P.MU * 32) = buf
  have hg : (ofV (L := P.L) fun i => centredBinomial P.MU (buf.drop (i.val * P.MU * 32))).getD i.val []
      = ofP (centredBinomial P.MU (buf.drop (i.val * P.MU * 32))) := by simp [ofV]
  rw [hg, ofP, getD_map_range _ _ _ _ hk]
  have hr := centredBinomial_range P.MU (buf.drop (i.val * P.MU * 32)) (Fin.ofNat 256 k)
  have hmu : P.MU / 2 ≤ 5 ∧ P.MU % 2 = 0 := by cases P <;> decide
  have e : (BitVec.ofInt 16 (centredBinomial P.MU (buf.drop (i.val * P.MU * 32)) (Fin.ofNat 256 k))).toInt
      = centredBinomial P.MU (buf.drop (i.val * P.MU * 32)) (Fin.ofNat 256 k) := by
    rw [BitVec.toInt_ofInt]
    apply Int.bmod_eq_of_le <;> omega
  rw [e, centredBinomial_pattern _ hmu.2]
  congr 1
  apply natOfBits_congr
  intro b _
  rw [bitAt_drop, Fin.val_ofNat, Nat.mod_eq_of_lt hk]
  congr 1
  ring

end Saber.Props

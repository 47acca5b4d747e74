import Verif.Proof.RoundTrip
import Verif.Proof.Poly
import Verif.Proof.Indcpa
/-!
# Properties of the packing functions: C16 to C19
-/
namespace Saber.Props
open Spec

theorem bitAt_drop (bs : List Byte) (off n : Nat) : bitAt (bs.drop off) n = bitAt bs (8 * off + n) := by
  unfold bitAt
  rw [show (8 * off + n) / 8 = off + n / 8 by omega, show (8 * off + n) % 8 = n % 8 by omega]
  simp only [List.getD_eq_getElem?_getD, List.getElem?_drop]

theorem bitAt_append (as bs : List Byte) (n : Nat) (h : n < 8 * as.length) : bitAt (as ++ bs) n = bitAt as n := by
  unfold bitAt
  rw [List.getD_append _ _ _ _ (by omega)]

theorem intBit_coeff (x : BitVec 16) (j : Nat) : intBit (x.toNat : Int) j = x.getLsbD j := by
  rw [intBit_natCast, BitVec.testBit_toNat]

theorem bitAt_pack_toP (k : Nat) (data : List (BitVec 16)) (n : Nat) (h : n < 256 * k) :
    bitAt (pack k (toP data)) n = (data.getD (n / k) 0).getLsbD (n % k) := by
  rw [bitAt_pack k _ n h, streamBit, toP, intBit_coeff]
  have : n / k < 256 := Nat.div_lt_of_lt_mul (by rwa [Nat.mul_comm] at h)
  rw [Fin.val_ofNat, Nat.mod_eq_of_lt this]

theorem bitAt_packVec (k L : Nat) (data : List (List (BitVec 16))) (i : Fin L) (n : Nat) (h : n < 256 * k) :
    bitAt (packVec k (toV L data)) (256 * k * i.val + n) = ((data.getD i.val []).getD (n / k) 0).getLsbD (n % k) := by
  obtain ⟨r, hr⟩ := packVec_drop k (toV L data) i
  have := bitAt_drop (packVec k (toV L data)) (32 * k * i.val) n
  rw [show 8 * (32 * k * i.val) = 256 * k * i.val by ring] at this
  rw [← this, hr, bitAt_append _ _ _ (by rw [length_pack]; omega)]
  exact bitAt_pack_toP k _ n h

theorem pack_toP_ofP (k : Nat) (p : Poly) (hk : 0 < k ∧ k ≤ 16) : pack k (toP (ofP p)) = pack k p :=
  pack_congr hk.1 (toP_ofP_mod p _ (by
    rw [show (65536 : Int) = 2 ^ 16 from rfl]
    exact pow_dvd_pow 2 hk.2))

theorem packVec_toV_ofV (k : Nat) {L : Nat} (v : Fin L → Poly) (hk : 0 < k ∧ k ≤ 16) : packVec k (toV L (ofV v)) = packVec k v :=
  packVec_congr hk.1 fun i => by
    rw [toV_ofV]
    exact toP_ofP_mod (v i) _ (by
      rw [show (65536 : Int) = 2 ^ 16 from rfl]
      exact pow_dvd_pow 2 hk.2)

/-- C16: packing with 13 bits per coefficient writes bit `n mod 13` of coefficient `n div 13` to bit `n`, and unpacking returns the
coefficients modulo `2^13`. -/
theorem C16_pack_unpack (P : PSet) (bytes : List Byte) (data data0 : List (List (BitVec 16))) (hd : IsVec P.L data) (hd0 : IsVec P.L data0)
    (hb : bytes.length = P.L * 416) :
    ∃ out data', POLVECq2BS P bytes 0 data = .ok out ∧ out.length = P.L * 416 ∧
      (∀ (i : Fin P.L) n, n < 256 * 13 → bitAt out (256 * 13 * i.val + n) = ((data.getD i.val []).getD (n / 13) 0).getLsbD (n % 13)) ∧
      BS2POLVECq P out 0 data0 = .ok data' ∧ IsVec P.L data' ∧ ∀ i k, toV P.L data' i k = toV P.L data i k % 8192 := by
  refine ⟨_, _, by rw [POLVECq2BS_ok P bytes 0 data hd (by omega), writeAt_full _ _ (by simp [hb])], by simp,
    fun i n hn => bitAt_packVec 13 P.L data i n hn, BS2POLVECq_ok P _ 0 data0 hd0 (by simp), isVec_ofV _, fun i k => ?_⟩
  rw [toV_ofV, toP_ofP, List.drop_zero]
  have := unpackVec_packVec 13 (toV P.L data) [] i k
  rw [List.append_nil] at this
  rw [this]; omega

/-- C16: unpacking any byte string and packing the result gives the byte string back. -/
theorem C16_unpack_pack (P : PSet) (bytes out : List Byte) (data0 : List (List (BitVec 16))) (hd0 : IsVec P.L data0)
    (hb : bytes.length = P.L * 416) (ho : out.length = P.L * 416) :
    ∃ data', BS2POLVECq P bytes 0 data0 = .ok data' ∧ POLVECq2BS P out 0 data' = .ok bytes := by
  refine ⟨_, BS2POLVECq_ok P bytes 0 data0 hd0 (by omega), ?_⟩
  rw [POLVECq2BS_ok P out 0 _ (isVec_ofV _) (by omega), writeAt_full _ _ (by simp [ho])]
  rw [packVec_toV_ofV _ _ (by omega), List.drop_zero, packVec_unpackVec 13 P.L bytes (by omega), List.take_of_length_le (by omega)]

/-- C17: the same with 10 bits per coefficient. -/
theorem C17_pack_unpack (P : PSet) (bytes : List Byte) (data data0 : List (List (BitVec 16))) (hd : IsVec P.L data) (hd0 : IsVec P.L data0)
    (hb : bytes.length = P.L * 320) :
    ∃ out data', POLVECp2BS P bytes 0 data = .ok out ∧ out.length = P.L * 320 ∧
      (∀ (i : Fin P.L) n, n < 256 * 10 → bitAt out (256 * 10 * i.val + n) = ((data.getD i.val []).getD (n / 10) 0).getLsbD (n % 10)) ∧
      BS2POLVECp P out 0 data0 = .ok data' ∧ IsVec P.L data' ∧ ∀ i k, toV P.L data' i k = toV P.L data i k % 1024 := by
  refine ⟨_, _, by rw [POLVECp2BS_ok P bytes 0 data hd (by omega), writeAt_full _ _ (by simp [hb])], by simp,
    fun i n hn => bitAt_packVec 10 P.L data i n hn, BS2POLVECp_ok P _ 0 data0 hd0 (by simp), isVec_ofV _, fun i k => ?_⟩
  rw [toV_ofV, toP_ofP, List.drop_zero]
  have := unpackVec_packVec 10 (toV P.L data) [] i k
  rw [List.append_nil] at this
  rw [this]; omega

/-- C17: unpacking any byte string and packing the result gives the byte string back. -/
theorem C17_unpack_pack (P : PSet) (bytes out : List Byte) (data0 : List (List (BitVec 16))) (hd0 : IsVec P.L data0)
    (hb : bytes.length = P.L * 320) (ho : out.length = P.L * 320) :
    ∃ data', BS2POLVECp P bytes 0 data0 = .ok data' ∧ POLVECp2BS P out 0 data' = .ok bytes := by
  refine ⟨_, BS2POLVECp_ok P bytes 0 data0 hd0 (by omega), ?_⟩
  rw [POLVECp2BS_ok P out 0 _ (isVec_ofV _) (by omega), writeAt_full _ _ (by simp [ho])]
  rw [packVec_toV_ofV _ _ (by omega), List.drop_zero, packVec_unpackVec 10 P.L bytes (by omega), List.take_of_length_le (by omega)]

/-- Number of bits per coefficient of the second part of a ciphertext. -/
def tBits : PSet → Nat
  | .light => 3
  | .saber => 4
  | .fire => 6

theorem tBits_eq (P : PSet) : tBits P = P.ET := by cases P <;> rfl

/-- C18: the same with 3, 4 or 6 bits per coefficient. -/
theorem C18_pack_unpack (P : PSet) (bytes : List Byte) (data data0 : List (BitVec 16)) (hd : data.length = 256) (hd0 : data0.length = 256)
    (hb : bytes.length = 32 * tBits P) :
    ∃ out data', POLT2BS P bytes 0 data = .ok out ∧ out.length = 32 * tBits P ∧
      (∀ n, n < 256 * tBits P → bitAt out n = (data.getD (n / tBits P) 0).getLsbD (n % tBits P)) ∧
      BS2POLT P out 0 data0 = .ok data' ∧ data'.length = 256 ∧ ∀ k, toP data' k = toP data k % 2 ^ tBits P := by
  rw [tBits_eq] at *
  refine ⟨_, _, by rw [POLT2BS_ok P bytes 0 data hd (by omega), writeAt_full _ _ (by simp [hb])], by simp,
    fun n hn => bitAt_pack_toP P.ET data n hn, BS2POLT_ok P _ 0 data0 hd0 (by simp), by simp, fun k => ?_⟩
  rw [toP_ofP, List.drop_zero]
  have := unpack_pack P.ET (toP data) k []
  rw [List.append_nil] at this
  rw [this]
  cases P <;> simp [PSet.ET] <;> omega

/-- C18: unpacking any byte string and packing the result gives the byte string back. -/
theorem C18_unpack_pack (P : PSet) (bytes out : List Byte) (data0 : List (BitVec 16)) (hd0 : data0.length = 256)
    (hb : bytes.length = 32 * tBits P) (ho : out.length = 32 * tBits P) :
    ∃ data', BS2POLT P bytes 0 data0 = .ok data' ∧ POLT2BS P out 0 data' = .ok bytes := by
  rw [tBits_eq] at *
  refine ⟨_, BS2POLT_ok P bytes 0 data0 hd0 (by omega), ?_⟩
  rw [POLT2BS_ok P out 0 _ (by simp) (by omega), writeAt_full _ _ (by simp [ho])]
  rw [pack_toP_ofP _ _ (by cases P <;> decide), List.drop_zero, pack_unpack _ _ (by omega), List.take_of_length_le (by omega)]

/-- C19: collecting the message bits of a polynomial uses bit 0 of each coefficient, and expanding the message again gives these
bits. -/
theorem C19_collect (bytes : List Byte) (data data0 : List (BitVec 16)) (hd : data.length = 256) (hd0 : data0.length = 256)
    (hb : bytes.length = 32) :
    ∃ out data', POLmsg2BS bytes 0 data = .ok out ∧ out.length = 32 ∧ (∀ n, n < 256 → bitAt out n = (data.getD n 0).getLsbD 0) ∧
      BS2POLmsg out 0 data0 = .ok data' ∧ data'.length = 256 ∧ ∀ k, toP data' k = toP data k % 2 := by
  refine ⟨_, _, by rw [POLmsg2BS_ok bytes 0 data hd (by omega), writeAt_full _ _ (by simp [hb])], by simp, fun n hn => ?_,
    BS2POLmsg_ok _ 0 data0 hd0 (by simp), by simp, fun k => ?_⟩
  · have := bitAt_pack_toP 1 data n (by omega)
    rwa [Nat.div_one, Nat.mod_one] at this
  · rw [toP_ofP, List.drop_zero]
    have := unpack_pack 1 (toP data) k []
    rw [List.append_nil] at this
    rw [this]; omega

/-- C19: expanding any message and collecting its bits gives the message back. -/
theorem C19_expand_collect (m out : List Byte) (data0 : List (BitVec 16)) (hd0 : data0.length = 256) (hm : m.length = 32)
    (ho : out.length = 32) :
    ∃ data', BS2POLmsg m 0 data0 = .ok data' ∧ (∀ i, i < 256 → data'.getD i 0 = if bitAt m i then 1 else 0) ∧
      POLmsg2BS out 0 data' = .ok m := by
  refine ⟨_, BS2POLmsg_ok m 0 data0 hd0 (by omega), fun i hi => ?_, ?_⟩
  · rw [ofP, getD_map_range _ _ _ _ hi, List.drop_zero]
    unfold unpack
    rw [natOfBits_succ]
    simp only [natOfBits, List.range_zero, List.map_nil, List.sum_nil, Nat.zero_add, pow_zero, Nat.mul_one, Nat.one_mul, Nat.add_zero,
      Fin.val_ofNat, Nat.mod_eq_of_lt hi]
    cases bitAt m i <;> rfl
  · rw [POLmsg2BS_ok out 0 _ (by simp) (by omega), writeAt_full _ _ (by simp [ho])]
    rw [pack_toP_ofP _ _ (by omega), List.drop_zero, pack_unpack _ _ (by omega), List.take_of_length_le (by omega)]

/-- The hypotheses are met: coefficients with bits above the packed ones, which the packing drops. -/
example : IsVec PSet.saber.L (List.replicate 3 (List.replicate 256 0xFFFF)) :=
  ⟨List.length_replicate, fun i hi => by
    have h3 : i < 3 := hi
    rw [List.getD_eq_getElem?_getD, List.getElem?_replicate, if_pos h3, Option.getD_some, List.length_replicate]⟩

end Saber.Props

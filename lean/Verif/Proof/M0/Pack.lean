import Verif.Model.M0.Pack
import Verif.Proof.Indcpa
/-!
# The packing functions of the Cortex-M0 port
-/
namespace Saber.M0
open Saber Spec

theorem pack6Blk_bits (d0 d1 d2 d3 r j : Nat) (hr : r < 3) (hj : j < 8) :
    ((pack6Blk d0 d1 d2 d3).getD r 0).getLsbD j = ([d0, d1, d2, d3].getD ((8 * r + j) / 6) 0).testBit ((8 * r + j) % 6) := by
  simp only [pack6Blk]
  interval_cases r <;> interval_cases j <;> bits_tac

theorem pack6_ok (bytes : List Byte) (off : Nat) (data : List (BitVec 16)) (hd : data.length = 256)
    (hb : off + 192 ≤ bytes.length) :
    SABER_pack_6bit bytes off data = .ok (writeAt bytes off (pack 6 (toP data))) := by
  let D : Nat → Nat := fun i => (data.getD i 0).toNat
  let vs : Nat → List Byte := fun j => pack6Blk (D (4 * j + 0)) (D (4 * j + 1)) (D (4 * j + 2)) (D (4 * j + 3))
  have hw : ∀ j, (vs j).length = 3 := fun j => rfl
  unfold SABER_pack_6bit
  rw [show N / 4 = 64 from rfl, loop_blocks 3 vs hw 64 bytes off (by omega),
    pack_of_blocks 6 4 3 64 (by omega) (by omega) rfl rfl data vs hw]
  · intro q hq r hr j hj
    simp only [vs]
    rw [pack6Blk_bits _ _ _ _ r j hr hj]
    have ht : (8 * r + j) / 6 < 4 := by omega
    generalize (8 * r + j) / 6 = t at ht ⊢
    generalize (8 * r + j) % 6 = u
    interval_cases t <;>
      simp only [List.getD_cons_zero, List.getD_cons_succ, D, BitVec.testBit_toNat]
  · intro j a' hj ha
    simp only [rdN_ok, hd, show 4 * j + 0 < 256 by omega, show 4 * j + 1 < 256 by omega, show 4 * j + 2 < 256 by omega, show 4 * j + 3 < 256 by omega, ok_bind, vs, D]

theorem pack4_eq : SABER_pack_4bit = POLT2BS_4 := rfl
theorem unpack3_eq : SABER_un_pack3bit = BS2POLT_3 := rfl
theorem unpack4_eq : SABER_un_pack4bit = BS2POLT_4 := rfl
theorem unpack6_eq : SABER_un_pack6bit = BS2POLT_6 := rfl
theorem rowp2BS_eq : rowp2BS = Saber.POLp2BS := rfl
theorem rowBS2p_eq : rowBS2p = Saber.BS2POLp := rfl
theorem rowq2BS_eq : rowq2BS = Saber.POLq2BS := rfl
theorem rowBS2q_eq : rowBS2q = Saber.BS2POLq := rfl

theorem off10 (i : Nat) : i * (N * 10) / 8 = 320 * i := by
  show i * (256 * 10) / 8 = 320 * i
  omega

theorem off13 (i : Nat) : i * (N * 13) / 8 = 416 * i := by
  show i * (256 * 13) / 8 = 416 * i
  omega

theorem POLVECp2BS_eq (bytes : List Byte) (off : Nat) (data : List (List (BitVec 16))) :
    POLVECp2BS bytes off data = Saber.POLVECp2BS .saber bytes off data := by
  unfold POLVECp2BS Saber.POLVECp2BS
  simp only [off10, rowp2BS_eq]
  have e (i : Nat) : i * (EP * N / 8) = 320 * i := Nat.mul_comm _ _
  simp only [e]; rfl

theorem BS2POLVECp_eq (bytes : List Byte) (off : Nat) (data : List (List (BitVec 16))) :
    BS2POLVECp bytes off data = Saber.BS2POLVECp .saber bytes off data := by
  unfold BS2POLVECp Saber.BS2POLVECp
  simp only [off10, rowBS2p_eq]
  have e (i : Nat) : i * (EP * N / 8) = 320 * i := Nat.mul_comm _ _
  simp only [e]; rfl

theorem POLVECq2BS_eq (bytes : List Byte) (off : Nat) (data : List (List (BitVec 16))) :
    POLVECq2BS bytes off data = Saber.POLVECq2BS .saber bytes off data := by
  unfold POLVECq2BS Saber.POLVECq2BS
  simp only [off13, rowq2BS_eq]
  have e (i : Nat) : i * POLYBYTES = 416 * i := Nat.mul_comm _ _
  simp only [e]; rfl

theorem BS2POLVECq_eq (bytes : List Byte) (off : Nat) (data : List (List (BitVec 16))) :
    BS2POLVECq bytes off data = Saber.BS2POLVECq .saber bytes off data := by
  unfold BS2POLVECq Saber.BS2POLVECq
  simp only [off13, rowBS2q_eq]
  have e (i : Nat) : i * POLYBYTES = 416 * i := Nat.mul_comm _ _
  simp only [e]; rfl

theorem POLVECp2BS_m0 (bytes : List Byte) (off : Nat) (data : List (List (BitVec 16))) (hd : IsVec 3 data) (hb : off + 960 ≤ bytes.length) :
    POLVECp2BS bytes off data = .ok (writeAt bytes off (packVec 10 (toV 3 data))) := by
  rw [POLVECp2BS_eq]; exact POLVECp2BS_ok .saber bytes off data hd hb

theorem POLVECq2BS_m0 (bytes : List Byte) (off : Nat) (data : List (List (BitVec 16))) (hd : IsVec 3 data) (hb : off + 1248 ≤ bytes.length) :
    POLVECq2BS bytes off data = .ok (writeAt bytes off (packVec 13 (toV 3 data))) := by
  rw [POLVECq2BS_eq]; exact POLVECq2BS_ok .saber bytes off data hd hb

theorem BS2POLVECq_m0 (bytes : List Byte) (off : Nat) (data : List (List (BitVec 16))) (hd : IsVec 3 data) (hb : off + 1248 ≤ bytes.length) :
    BS2POLVECq bytes off data = .ok (ofV (unpackVec 13 3 (bytes.drop off))) := by
  rw [BS2POLVECq_eq]; exact BS2POLVECq_ok .saber bytes off data hd hb

theorem BS2POLp_m0 (i : Nat) (bytes : List Byte) (off : Nat) (pol : List (BitVec 16)) (hp : pol.length = 256)
    (hb : off + 320 * i + 320 ≤ bytes.length) :
    BS2POLp i bytes off pol = .ok (ofP (unpack 10 (bytes.drop (off + 320 * i)))) := by
  unfold BS2POLp
  rw [rowBS2p_eq, off10, BS2POLp_ok _ _ _ hp (by omega)]

theorem POLp2BS_m0 (i : Nat) (bytes : List Byte) (off : Nat) (pol : List (BitVec 16)) (hp : pol.length = 256)
    (hb : off + 320 * i + 320 ≤ bytes.length) :
    POLp2BS bytes off pol i = .ok (writeAt bytes (off + 320 * i) (pack 10 (toP pol))) := by
  unfold POLp2BS
  rw [rowp2BS_eq, off10, POLp2BS_ok _ _ _ hp (by omega)]

/-! ### The 3-bit functions -/

/-- What `SABER_pack_3bit` stores: as the packed format, but the lowest bit of every coefficient number `8 j + 5` is its bit 2. -/
def garble3 (p : Poly) : Poly := fun i => if i.val % 8 = 5 then p i / 2 % 4 * 2 + p i / 4 % 2 else p i

theorem pack3Blk_eq (d0 d1 d2 d3 d4 d5 d6 d7 : Nat) :
    pack3Blk d0 d1 d2 d3 d4 d5 d6 d7 = POLT2BS_3Blk d0 d1 d2 d3 d4 (d5 / 2 % 4 * 2 + d5 / 4 % 2) d6 d7 := by
  have e1 : (d5 / 2 % 4 * 2 + d5 / 4 % 2) &&& 1 = (d5 >>> 2) &&& 1 := by
    rw [Nat.and_one_is_mod, Nat.and_one_is_mod, Nat.shiftRight_eq_div_pow]; omega
  have e2 : ((d5 / 2 % 4 * 2 + d5 / 4 % 2) >>> 1) &&& 3 = (d5 >>> 1) &&& 3 := by
    have h3 (x : Nat) : x &&& 3 = x % 4 := Nat.and_two_pow_sub_one_eq_mod x 2
    rw [h3, h3, Nat.shiftRight_eq_div_pow, Nat.shiftRight_eq_div_pow, pow_one]
    have hu : d5 / 2 % 4 < 4 := Nat.mod_lt _ (by omega)
    have hw : d5 / 4 % 2 < 2 := Nat.mod_lt _ (by omega)
    generalize d5 / 2 % 4 = u at *
    generalize d5 / 4 % 2 = w at *
    omega
  unfold pack3Blk POLT2BS_3Blk
  simp only [e1, e2]

theorem getD_ofP (p : Poly) (k : Nat) (hk : k < 256) : (ofP p).getD k 0 = BitVec.ofInt 16 (p ⟨k, hk⟩) := by
  rw [ofP, getD_map_range _ _ _ _ hk]
  have : Fin.ofNat 256 k = ⟨k, hk⟩ := Fin.ext (Nat.mod_eq_of_lt hk)
  rw [this]

theorem garble3_nat (data : List (BitVec 16)) (k : Nat) (hk : k < 256) :
    ((ofP (garble3 (toP data))).getD k 0).toNat =
      if k % 8 = 5 then (data.getD k 0).toNat / 2 % 4 * 2 + (data.getD k 0).toNat / 4 % 2 else (data.getD k 0).toNat := by
  rw [getD_ofP _ _ hk, BitVec.toNat_ofInt]
  have hl := (data.getD k 0).isLt
  simp only [garble3, toP]
  generalize (data.getD k 0).toNat = x at hl ⊢
  split
  · have hu : x / 2 % 4 < 4 := Nat.mod_lt _ (by omega)
    have hw : x / 4 % 2 < 2 := Nat.mod_lt _ (by omega)
    have e : ((x : Int) / 2 % 4 * 2 + (x : Int) / 4 % 2) = ((x / 2 % 4 * 2 + x / 4 % 2 : Nat) : Int) := by push_cast; rfl
    rw [e]
    generalize x / 2 % 4 * 2 + x / 4 % 2 = w at *
    omega
  · omega

/-- `SABER_pack_3bit` does not store the polynomial it is given. -/
theorem pack3_ok (bytes : List Byte) (off : Nat) (data : List (BitVec 16)) (hd : data.length = 256)
    (hb : off + 96 ≤ bytes.length) :
    SABER_pack_3bit bytes off data = .ok (writeAt bytes off (pack 3 (garble3 (toP data)))) := by
  have hp : pack 3 (garble3 (toP data)) = pack 3 (toP (ofP (garble3 (toP data)))) :=
    pack_congr (by omega) (EqMod.symm (toP_ofP_mod _ _ (by decide)))
  rw [hp, ← POLT2BS_3_ok bytes off _ (length_ofP _) hb]
  unfold SABER_pack_3bit POLT2BS_3
  refine loop_congr fun j a' hj => ?_
  have hj : j < 32 := hj
  have g (c : Nat) (hc : c < 8) : ((ofP (garble3 (toP data))).getD (8 * j + c) 0).toNat = _ := garble3_nat data (8 * j + c) (by omega)
  have hl : (ofP (garble3 (toP data))).length = 256 := length_ofP _
  generalize ofP (garble3 (toP data)) = data' at *
  simp only [rdN_ok, hd, hl, show 8 * j + 0 < 256 by omega, show 8 * j + 1 < 256 by omega, show 8 * j + 2 < 256 by omega, show 8 * j + 3 < 256 by omega, show 8 * j + 4 < 256 by omega, show 8 * j + 5 < 256 by omega, show 8 * j + 6 < 256 by omega, show 8 * j + 7 < 256 by omega, ok_bind]
  rw [pack3Blk_eq, g 0 (by omega), g 1 (by omega), g 2 (by omega), g 3 (by omega), g 4 (by omega), g 5 (by omega), g 6 (by omega), g 7 (by omega)]
  simp

end Saber.M0

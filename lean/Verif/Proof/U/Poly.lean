import Verif.Model.U.Poly
import Verif.Spec.USaber
import Verif.Proof.Poly
import Verif.Proof.RoundTrip
import Verif.Proof.U.AesCtr
import Verif.Proof.U.Sha256
import Verif.Proof.U.Sha512
/-!
# Proofs about `symmetric.h`, `pack_unpack.c` and `poly.c` of uSaber-90s
-/
namespace Saber.U
open Spec

/-- The symmetric functions of a configuration. -/
def Cfg.sym (c : Cfg) : USpec.Sym := if c.s90 then USpec.s90 else USpec.fips202

/-- The specification's parameters of a configuration. -/
abbrev Cfg.spec (c : Cfg) : USpec.Params := ⟨c.P.L, c.P.MU, c.P.ET, c.u, c.sym⟩

/-! ### Symmetric functions -/

theorem prf_ok (c : Cfg) (out : List Byte) (outOff outlen : Nat) (inp : List Byte) (inOff : Nat) (ho : outOff + outlen ≤ out.length)
    (hi : inOff + 32 ≤ inp.length) :
    prf c out outOff outlen inp inOff 32 = .ok (writeAt out outOff (c.sym.prf ((inp.drop inOff).take 32) outlen)) := by
  obtain ⟨P, u, s⟩ := c
  cases s
  · exact shake128_ok out outOff outlen inp inOff 32 ho hi
  · exact Aes.prf_ok out outOff outlen inp inOff (List.replicate 12 0) 0 ho hi (by simp)

theorem hash_h_ok (c : Cfg) (out : List Byte) (outOff : Nat) (inp : List Byte) (inOff inlen : Nat) (ho : outOff + 32 ≤ out.length)
    (hi : inOff + inlen ≤ inp.length) (hlen : inlen < 2 ^ 61) :
    hash_h c out outOff inp inOff inlen = .ok (writeAt out outOff (c.sym.H ((inp.drop inOff).take inlen))) := by
  obtain ⟨P, u, s⟩ := c
  cases s
  · exact sha3_256_ok out outOff inp inOff inlen ho hi
  · exact sha256_ok out outOff inp inOff inlen ho hi hlen

theorem hash_g_ok (c : Cfg) (out : List Byte) (outOff : Nat) (inp : List Byte) (inOff inlen : Nat) (ho : outOff + 64 ≤ out.length)
    (hi : inOff + inlen ≤ inp.length) (hlen : inlen < 2 ^ 61) :
    hash_g c out outOff inp inOff inlen = .ok (writeAt out outOff (c.sym.G ((inp.drop inOff).take inlen))) := by
  obtain ⟨P, u, s⟩ := c
  cases s
  · exact sha3_512_ok out outOff inp inOff inlen ho hi
  · exact sha512_ok out outOff inp inOff inlen ho hi (by omega)

theorem length_prf (c : Cfg) (seed : List Byte) (n : Nat) (h : seed.length = 32) : (c.sym.prf seed n).length = n := by
  obtain ⟨P, u, s⟩ := c
  cases s
  · exact length_shake128 _ _
  · show (Spec.Aes.ctr seed (List.replicate 12 0) n).length = n
    rw [← Aes.ctrFrom_zero, Aes.length_ctrFrom _ _ _ _ h]

theorem length_H (c : Cfg) (x : List Byte) : (c.sym.H x).length = 32 := by
  obtain ⟨P, u, s⟩ := c
  cases s
  · exact length_sha3_256 _
  · exact Sha256.length_bytes _

theorem length_G (c : Cfg) (x : List Byte) : (c.sym.G x).length = 64 := by
  obtain ⟨P, u, s⟩ := c
  cases s
  · exact length_sha3_512 _
  · exact Sha512.length_bytes _

/-! ### 12-bit packing -/

theorem POLq2BS_12Blk_bits (d0 d1 r j : Nat) (hr : r < 3) (hj : j < 8) :
    ((POLq2BS_12Blk d0 d1).getD r 0).getLsbD j = ([d0, d1].getD ((8 * r + j) / 12) 0).testBit ((8 * r + j) % 12) := by
  simp only [POLq2BS_12Blk]
  interval_cases r <;> interval_cases j <;> bits_tac

theorem POLq2BS_12_ok (bytes : List Byte) (off : Nat) (data : List (BitVec 16)) (hd : data.length = 256)
    (hb : off + 384 ≤ bytes.length) :
    POLq2BS_12 bytes off data = .ok (writeAt bytes off (pack 12 (toP data))) := by
  let D : Nat → Nat := fun i => (data.getD i 0).toNat
  let vs : Nat → List Byte := fun j => POLq2BS_12Blk (D (2 * j + 0)) (D (2 * j + 1))
  have hw : ∀ j, (vs j).length = 3 := fun j => rfl
  unfold POLq2BS_12
  rw [show N / 2 = 128 from rfl, loop_blocks 3 vs hw 128 bytes off (by omega),
    pack_of_blocks 12 2 3 128 (by omega) (by omega) rfl rfl data vs hw]
  · intro q hq r hr j hj
    simp only [vs]
    rw [POLq2BS_12Blk_bits _ _ r j hr hj]
    have ht : (8 * r + j) / 12 < 2 := by omega
    generalize (8 * r + j) / 12 = t at ht ⊢
    generalize (8 * r + j) % 12 = u
    interval_cases t <;>
      simp only [List.getD_cons_zero, List.getD_cons_succ, D, BitVec.testBit_toNat]
  · intro j a' hj ha
    simp only [rdN_ok, hd, show 2 * j + 0 < 256 by omega, show 2 * j + 1 < 256 by omega, ok_bind, vs, D]

theorem BS2POLq_12Blk_bits (b0 b1 b2 r j : Nat) (hr : r < 2) (hj : j < 16) :
    ((BS2POLq_12Blk b0 b1 b2).getD r 0).getLsbD j =
      (decide (j < 12) && ([b0, b1, b2].getD ((12 * r + j) / 8) 0).testBit ((12 * r + j) % 8)) := by
  simp only [BS2POLq_12Blk]
  interval_cases r <;> interval_cases j <;> bits_tac

theorem BS2POLq_12_ok (bytes : List Byte) (off : Nat) (data : List (BitVec 16)) (hd : data.length = 256)
    (hb : off + 384 ≤ bytes.length) :
    BS2POLq_12 bytes off data = .ok (ofP (unpack 12 (bytes.drop off))) := by
  let D : Nat → Nat := fun i => (bytes.getD i 0).toNat
  let vs : Nat → List (BitVec 16) := fun j => BS2POLq_12Blk (D (off + 3 * j + 0)) (D (off + 3 * j + 1)) (D (off + 3 * j + 2))
  have hw : ∀ j, (vs j).length = 2 := fun j => rfl
  have hu := unpack_of_blocks 12 2 3 128 (by omega) rfl rfl bytes off vs hw (by
    intro q hq r hr j hj
    simp only [vs]
    rw [BS2POLq_12Blk_bits _ _ _ r j hr hj]
    by_cases hjk : j < 12
    · have ht : (12 * r + j) / 8 < 3 := by omega
      generalize (12 * r + j) / 8 = t at ht ⊢
      generalize (12 * r + j) % 8 = u
      interval_cases t <;>
        simp only [List.getD_cons_zero, List.getD_cons_succ, D, BitVec.testBit_toNat]
    · simp [hjk])
  unfold BS2POLq_12
  rw [show N / 2 = 128 from rfl, loop_blocks 2 vs hw 128 data 0 (by omega), hu, writeAt_full _ _ (by simp [hd])]
  intro j a' hj ha
  simp only [rdN_ok, show off + 3 * j + 0 < bytes.length by omega, show off + 3 * j + 1 < bytes.length by omega, show off + 3 * j + 2 < bytes.length by omega, ok_bind, vs, D, Nat.zero_add]

theorem POLYBYTES_eq (c : Cfg) : c.POLYBYTES = 32 * c.EQ := by
  unfold Cfg.POLYBYTES; rw [show N = 8 * 32 from rfl]; omega

theorem EQ_spec (c : Cfg) : c.spec.eq = c.EQ := rfl

theorem POLq2BS_ok (c : Cfg) (bytes : List Byte) (off : Nat) (data : List (BitVec 16)) (hd : data.length = 256)
    (hb : off + 32 * c.EQ ≤ bytes.length) :
    POLq2BS c bytes off data = .ok (writeAt bytes off (pack c.EQ (toP data))) := by
  obtain ⟨P, u, s⟩ := c
  cases u
  · exact Saber.POLq2BS_ok bytes off data hd hb
  · exact POLq2BS_12_ok bytes off data hd hb

theorem BS2POLq_ok (c : Cfg) (bytes : List Byte) (off : Nat) (data : List (BitVec 16)) (hd : data.length = 256)
    (hb : off + 32 * c.EQ ≤ bytes.length) :
    BS2POLq c bytes off data = .ok (ofP (unpack c.EQ (bytes.drop off))) := by
  obtain ⟨P, u, s⟩ := c
  cases u
  · exact Saber.BS2POLq_ok bytes off data hd hb
  · exact BS2POLq_12_ok bytes off data hd hb

theorem POLVECq2BS_ok (c : Cfg) (bytes : List Byte) (off : Nat) (data : List (List (BitVec 16)))
    (hd : IsVec c.P.L data) (hb : off + c.P.L * (32 * c.EQ) ≤ bytes.length) :
    POLVECq2BS c bytes off data = .ok (writeAt bytes off (packVec c.EQ (toV c.P.L data))) := by
  unfold POLVECq2BS
  rw [packVec_toV]
  apply loop_blocks (32 * c.EQ) _ (fun _ => length_pack _ _) c.P.L bytes off (by rw [Nat.mul_comm (32 * c.EQ)]; exact hb)
  intro j a' hj ha
  have h1 : 32 * c.EQ * j + 32 * c.EQ ≤ c.P.L * (32 * c.EQ) := by
    have := Nat.mul_le_mul_right (32 * c.EQ) (show j + 1 ≤ c.P.L by omega)
    rw [Nat.succ_mul, Nat.mul_comm j] at this; exact this
  have e : j * c.POLYBYTES = 32 * c.EQ * j := by rw [POLYBYTES_eq, Nat.mul_comm]
  rw [rd_ok [] (by rw [hd.1]; exact hj), ok_bind, e, POLq2BS_ok _ _ _ _ (hd.2 j hj) (by omega), wrs_ok]
  rw [length_pack]; omega

theorem BS2POLVECq_ok (c : Cfg) (bytes : List Byte) (off : Nat) (data : List (List (BitVec 16)))
    (hd : IsVec c.P.L data) (hb : off + c.P.L * (32 * c.EQ) ≤ bytes.length) :
    BS2POLVECq c bytes off data = .ok (ofV (unpackVec c.EQ c.P.L (bytes.drop off))) := by
  unfold BS2POLVECq
  rw [loop_rows c.P.L data hd.1 [] (fun i => ofP (unpack c.EQ ((bytes.drop off).drop (32 * c.EQ * i))))]
  · rw [← finRange_map_val]; rfl
  · intro j a' hj ha hr
    have h1 : 32 * c.EQ * j + 32 * c.EQ ≤ c.P.L * (32 * c.EQ) := by
      have := Nat.mul_le_mul_right (32 * c.EQ) (show j + 1 ≤ c.P.L by omega)
      rw [Nat.succ_mul, Nat.mul_comm j] at this; exact this
    have e : j * c.POLYBYTES = 32 * c.EQ * j := by rw [POLYBYTES_eq, Nat.mul_comm]
    rw [rd_ok [] (by omega), ok_bind, hr, e, BS2POLq_ok _ _ _ _ (hd.2 j hj) (by omega), ok_bind,
      wr_ok (by omega), List.drop_drop]

/-! ### Sampling -/

/-- The value of `(((b >> k) & 3) ^ 2) - 2`. -/
def twoVal (b k : Nat) : BitVec 16 := u16 ((((b >>> k) &&& 0x03) ^^^ 2 : Nat) - 2 : Int)

theorem twoBits_ok (b k : Nat) : twoBits b k = .ok (twoVal b k) := by
  unfold twoBits twoVal
  have h : (b >>> k) &&& 0x03 < 4 := by
    have : (b >>> k) &&& 3 ≤ 3 := Nat.and_le_right
    omega
  generalize (b >>> k) &&& 0x03 = x at h
  have hx : x ^^^ 2 < 4 := Nat.xor_lt_two_pow (n := 2) h (by decide)
  rw [isub_ok (by omega), ok_bind]
  rfl

theorem twoVal_eq (b k : Nat) :
    twoVal b k = BitVec.ofInt 16 (if ((b >>> k % 4 : Nat) : Int) < 2 then (b >>> k % 4 : Nat) else ((b >>> k % 4 : Nat) : Int) - 4) := by
  unfold twoVal u16
  rw [show (0x03 : Nat) = 2 ^ 2 - 1 from rfl, Nat.and_two_pow_sub_one_eq_mod]
  have h : b >>> k % 2 ^ 2 < 4 := Nat.mod_lt _ (by decide)
  show BitVec.ofInt 16 (((b >>> k % 2 ^ 2) ^^^ 2 : Nat) - 2 : Int) = BitVec.ofInt 16 (if ((b >>> k % 2 ^ 2 : Nat) : Int) < 2 then ((b >>> k % 2 ^ 2 : Nat) : Int) else ((b >>> k % 2 ^ 2 : Nat) : Int) - 4)
  generalize b >>> k % 2 ^ 2 = x at h
  interval_cases x <;> rfl

theorem unpack_two (bs : List Byte) (k : Fin 256) :
    unpack 2 bs k = (((bs.getD (k.val / 4) 0).toNat >>> (2 * (k.val % 4)) % 4 : Nat) : Int) := by
  unfold unpack
  congr 1
  apply Nat.eq_of_testBit_eq
  intro j
  rw [natOfBits_testBit, show (4 : Nat) = 2 ^ 2 from rfl, Nat.testBit_mod_two_pow, Nat.testBit_shiftRight]
  by_cases hj : j < 2
  · simp only [hj, decide_true, Bool.true_and]
    unfold bitAt
    rw [BitVec.testBit_toNat, show (2 * k.val + j) / 8 = k.val / 2 ^ 2 by omega, show (2 * k.val + j) % 8 = 2 * (k.val % 2 ^ 2) + j by omega]
  · simp [hj]

theorem uniformRow_ok (si : List (BitVec 16)) (buf : List Byte) (off : Nat) (hs : si.length = 256) (hb : off + 64 ≤ buf.length) :
    uniformRow si buf off = .ok (ofP (USpec.uniform2 (buf.drop off))) := by
  let D : Nat → Nat := fun i => (buf.getD i 0).toNat
  let vs : Nat → List (BitVec 16) := fun j => [twoVal (D (j + off)) 0, twoVal (D (j + off)) 2, twoVal (D (j + off)) 4, twoVal (D (j + off)) 6]
  have hw : ∀ j, (vs j).length = 4 := fun j => rfl
  unfold uniformRow
  rw [show N / 4 = 64 from rfl, loop_blocks 4 vs hw 64 si 0 (by omega)]
  · have e : (List.range 64).flatMap vs = ofP (USpec.uniform2 (buf.drop off)) := by
      apply ext_getD 0
      · rw [length_flatMap_range _ _ hw, length_ofP]
      · intro m hm
        rw [length_flatMap_range _ _ hw] at hm
        rw [getD_flatMap_range 4 (by omega) vs hw 0 64 m hm, ofP, getD_map_range _ _ _ _ (by omega)]
        unfold USpec.uniform2
        rw [unpack_two, getD_drop, show (Fin.ofNat 256 m).val = m from Nat.mod_eq_of_lt (by omega), Nat.add_comm off, ← twoVal_eq]
        have hr := Nat.mod_lt m (show 0 < 4 by omega)
        simp only [vs, D]
        generalize m % 4 = r at hr
        interval_cases r <;> rfl
    rw [e, writeAt_full _ _ (by simp [hs])]
  · intro j a' hj ha
    simp only [rdN_ok, show j + off < buf.length by omega, ok_bind, twoBits_ok, vs, D, Nat.zero_add]
    rw [← Aes.wrs_four]

theorem secretRow_ok (c : Cfg) (si : List (BitVec 16)) (buf : List Byte) (off : Nat) (hs : si.length = 256)
    (hb : off + c.POLYCOINBYTES ≤ buf.length) :
    secretRow c si buf off = .ok (ofP (USpec.sample c.spec (buf.drop off))) := by
  obtain ⟨P, u, s⟩ := c
  cases u
  · exact cbd_ok P si buf off hs hb
  · exact uniformRow_ok si buf off hs hb

theorem coinBytes_eq (c : Cfg) : c.POLYCOINBYTES = c.spec.coinBits * 32 := by
  obtain ⟨P, u, s⟩ := c
  cases u <;> cases P <;> simp [Cfg.POLYCOINBYTES, USpec.Params.coinBits, PSet.MU, N]

theorem POLYVECBYTES_eq (c : Cfg) : c.POLYVECBYTES = c.P.L * (32 * c.EQ) := by
  unfold Cfg.POLYVECBYTES; rw [POLYBYTES_eq]

theorem GenMatrix_ok (c : Cfg) (A : List (List (List (BitVec 16)))) (hA : IsMat c.P.L A) (seed : List Byte) (off : Nat)
    (hs : off + 32 ≤ seed.length) :
    GenMatrix c A seed off = .ok (ofM (USpec.genMatrix c.spec ((seed.drop off).take 32))) := by
  have ev := POLYVECBYTES_eq c
  have hlen : c.P.L * c.POLYVECBYTES = c.P.L * c.P.L * (32 * c.EQ) := by rw [ev, Nat.mul_assoc]
  have hsl : ((seed.drop off).take 32).length = 32 := by rw [List.length_take, List.length_drop]; omega
  have hl := length_prf c ((seed.drop off).take 32) (c.P.L * c.P.L * (32 * c.EQ)) hsl
  unfold GenMatrix USpec.genMatrix
  rw [prf_ok _ _ _ _ _ _ (by simp) hs, ok_bind, hlen, writeAt_full _ _ (by rw [length_uninit]; omega)]
  dsimp only
  rw [EQ_spec]
  generalize c.sym.prf ((seed.drop off).take 32) (c.P.L * c.P.L * (32 * c.EQ)) = buf at *
  rw [loop_rows c.P.L A hA.1 [] (fun i => ofV (L := c.P.L) fun j => unpack c.EQ (buf.drop ((i * c.P.L + j.val) * (32 * c.EQ))))]
  · rw [← finRange_map_val]; rfl
  · intro i a' hi ha hr
    have hb : i * c.POLYVECBYTES + c.P.L * (32 * c.EQ) ≤ buf.length := by
      rw [hl, ev, Nat.mul_assoc, ← Nat.succ_mul]
      exact Nat.mul_le_mul_right _ hi
    rw [rd_ok [] (by omega), ok_bind, hr, BS2POLVECq_ok c buf _ _ (hA.2 i hi) hb, ok_bind, wr_ok (by omega)]
    congr 3
    funext j
    rw [unpackVec, List.drop_drop]
    congr 2
    rw [ev]; ring

theorem GenSecret_ok (c : Cfg) (s : List (List (BitVec 16))) (hs : IsVec c.P.L s) (seed : List Byte) (off : Nat)
    (hb : off + 32 ≤ seed.length) :
    GenSecret c s seed off = .ok (ofV (USpec.genSecret c.spec ((seed.drop off).take 32))) := by
  have hc := coinBytes_eq c
  have hlen : c.P.L * c.POLYCOINBYTES = c.P.L * c.spec.coinBits * 32 := by rw [hc, Nat.mul_assoc]
  have hsl : ((seed.drop off).take 32).length = 32 := by rw [List.length_take, List.length_drop]; omega
  have hl := length_prf c ((seed.drop off).take 32) (c.P.L * c.spec.coinBits * 32) hsl
  unfold GenSecret USpec.genSecret
  rw [prf_ok _ _ _ _ _ _ (by simp) hb, ok_bind, hlen, writeAt_full _ _ (by rw [length_uninit]; omega)]
  dsimp only
  generalize c.sym.prf ((seed.drop off).take 32) (c.P.L * c.spec.coinBits * 32) = buf at *
  rw [loop_rows c.P.L s hs.1 [] (fun i => ofP (USpec.sample c.spec (buf.drop (i * c.spec.coinBits * 32))))]
  · rw [← finRange_map_val]; rfl
  · intro i a' hi ha hr
    have hb : i * c.POLYCOINBYTES + c.POLYCOINBYTES ≤ buf.length := by
      rw [hl, hc, Nat.mul_assoc, ← Nat.succ_mul]
      exact Nat.mul_le_mul_right _ hi
    rw [rd_ok [] (by omega), ok_bind, hr, secretRow_ok c _ _ _ (hs.2 i hi) hb, ok_bind, wr_ok (by omega), hc, Nat.mul_assoc]

end Saber.U

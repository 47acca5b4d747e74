import Verif.Model.M0.Fips202
import Verif.Proof.Fips202
/-!
# The hash functions of the Cortex-M0 port
-/
namespace Saber.M0
open Saber Spec Spec.Keccak

variable [Spec.Keccak.Permutation] [StatePermute] [Permutes]

omit [Permutation] [StatePermute] [Permutes] in
theorem zeroState_ok (s : List (BitVec 64)) (hs : s.length = 25) : zeroState s = .ok (List.replicate 25 0) := by
  unfold zeroState
  have := memset_ok s 0 (0 : BitVec 64) 25 (by omega)
  unfold memset at this
  simp only [Nat.zero_add] at this
  rw [this, writeAt_full _ _ (by simp [hs])]

omit [Permutation] [StatePermute] [Permutes] in
theorem bits_zero : bitsOfLanes (List.replicate 25 0) = List.replicate 1600 false := by
  unfold bitsOfLanes
  apply ext_getD false (by rw [List.length_map, List.length_range, List.length_replicate])
  intro n hn
  rw [List.length_map, List.length_range] at hn
  rw [getD_map_range _ _ _ _ hn, List.getD_replicate _ hn, List.getD_replicate _ (by omega)]
  simp

theorem keccak_absorb_m0 (s : List (BitVec 64)) (hs : s.length = 25) (r : Nat) (hr8 : r % 8 = 0) (hr0 : 0 < r) (hr : r < 200)
    (m : List Byte) (mOff mlen : Nat) (hm : mOff + mlen ≤ m.length) (p : Byte) (suf : List Bool) (hp : SepByte p suf) :
    Ok (keccak_absorb s r m mOff mlen p) fun s' => s'.length = 25 ∧
      keccakF (bitsOfLanes s') = absorb (8 * r) (bitsOfBytes ((m.drop mOff).take mlen) ++ suf) := by
  unfold keccak_absorb
  rw [zeroState_ok s hs, ok_bind]
  exact keccak_absorb_ok _ List.length_replicate bits_zero r hr8 hr0 hr m mOff mlen hm p suf hp

theorem squeezeOut_ok (r : Nat) (hr8 : r % 8 = 0) (hr0 : 0 < r) (hr : r ≤ 200) (output : List Byte) (outOff outlen : Nat)
    (s : List (BitVec 64)) (hs : s.length = 25) (ho : outOff + outlen ≤ output.length) :
    squeezeOut r output outOff outlen s =
      .ok (writeAt output outOff ((sqBytes r (keccakF (bitsOfLanes s)) (outlen / r + 1)).take outlen)) := by
  have hq : r * (outlen / r) + outlen % r = outlen := Nat.div_add_mod _ _
  have hq2 := Nat.mod_lt outlen hr0
  unfold squeezeOut
  dsimp only
  generalize outlen / r = n at *
  generalize outlen % r = q at *
  obtain ⟨⟨o, s2⟩, e2, h2, hs2, h3⟩ := squeezeblocks_ok output outOff n s r hr8 hr hs (by omega)
  rw [e2, ok_bind]
  simp only at h2 hs2 h3 ⊢
  have hS : (keccakF (bitsOfLanes s)).length = 1600 := length_keccakF _
  have hl := length_sqBytes r hr _ hS n
  rw [show outlen - n * r = q by rw [Nat.mul_comm]; omega]
  have hstep : sqBytes r (keccakF (bitsOfLanes s)) (n + 1) = sqBytes r (keccakF (bitsOfLanes s)) n ++
      bytesOfBits ((keccakF^[n] (keccakF (bitsOfLanes s))).take (8 * r)) := sqBytes_succ _ _ _
  by_cases hq0 : q = 0
  · subst hq0
    rw [if_neg (by simp), pure_eq_ok, h2, hstep, List.take_append_of_le_length (by omega), List.take_of_length_le (by omega)]
  · rw [if_pos hq0]
    obtain ⟨⟨t, s3⟩, e4, h4, -, -⟩ := squeezeblocks_ok (uninit 8 110 r) 0 1 s2 r hr8 hr hs2 (by simp)
    rw [e4, ok_bind]
    simp only at h4 ⊢
    have hl2 := length_sqBytes r hr (keccakF (bitsOfLanes s2)) (length_keccakF _) 1
    rw [writeAt_full _ _ (by rw [hl2]; simp)] at h4
    have hlo : o.length = output.length := by rw [h2, length_writeAt _ _ _ (by omega)]
    rw [copyLoop_ok _ _ _ _ (by rw [h4, hl2]; omega) (by rw [Nat.mul_comm n]; omega), h4, h2, hstep]
    have hb : sqBytes r (keccakF (bitsOfLanes s2)) 1 = bytesOfBits ((keccakF^[n] (keccakF (bitsOfLanes s))).take (8 * r)) := by
      rw [h3, ← Function.iterate_succ_apply' keccakF, Function.iterate_succ_apply, sqBytes_succ]; rfl
    rw [hb]
    have hlb := length_sqBlock r hr _ hS n
    generalize bytesOfBits ((keccakF^[n] (keccakF (bitsOfLanes s))).take (8 * r)) = B at *
    generalize sqBytes r (keccakF (bitsOfLanes s)) n = A at *
    have := writeAt_append output outOff A (B.take q) (by simp; omega)
    rw [hl] at this
    rw [Nat.mul_comm n, this, List.take_append,
      List.take_of_length_le (show A.length ≤ outlen by omega), hl, show outlen - r * n = q by omega]

/-- An extendable output function built from the two phases. -/
theorem xof_ok (r : Nat) (hr8 : r % 8 = 0) (hr0 : 0 < r) (hr : r < 200) (s : List (BitVec 64)) (hs : s.length = 25)
    (output : List Byte) (outOff outlen : Nat) (input : List Byte) (inOff inlen : Nat) (p : Byte) (suf : List Bool) (hp : SepByte p suf)
    (ho : outOff + outlen ≤ output.length) (hi : inOff + inlen ≤ input.length) :
    (do let s ← keccak_absorb s r input inOff inlen p
        squeezeOut r output outOff outlen s) =
      .ok (writeAt output outOff (bytesOfBits (sponge (8 * r) (bitsOfBytes ((input.drop inOff).take inlen) ++ suf) (8 * outlen)))) := by
  obtain ⟨s1, e1, hs1, h1⟩ := keccak_absorb_m0 s hs r hr8 hr0 hr input inOff inlen hi _ _ hp
  rw [e1, ok_bind, squeezeOut_ok r hr8 hr0 hr.le _ _ _ _ hs1 ho, h1,
    sponge_bytes r hr0 hr.le _ outlen (outlen / r + 1) (Nat.le_of_lt (Nat.lt_mul_div_succ _ hr0))]

theorem shake128_m0 (output : List Byte) (outOff outlen : Nat) (input : List Byte) (inOff inlen : Nat)
    (ho : outOff + outlen ≤ output.length) (hi : inOff + inlen ≤ input.length) :
    shake128 output outOff outlen input inOff inlen =
      .ok (writeAt output outOff (Keccak.shake128 ((input.drop inOff).take inlen) outlen)) :=
  xof_ok 168 (by omega) (by omega) (by omega) _ List.length_replicate _ _ _ _ _ _ _ _ sepByte_shake ho hi

theorem shake256_m0 (output : List Byte) (outOff outlen : Nat) (input : List Byte) (inOff inlen : Nat)
    (ho : outOff + outlen ≤ output.length) (hi : inOff + inlen ≤ input.length) :
    shake256 output outOff outlen input inOff inlen =
      .ok (writeAt output outOff (Keccak.shake256 ((input.drop inOff).take inlen) outlen)) :=
  xof_ok 136 (by omega) (by omega) (by omega) _ (length_uninit _ _ _) _ _ _ _ _ _ _ _ sepByte_shake ho hi

theorem sha3_256_m0 (output : List Byte) (outOff : Nat) (input : List Byte) (inOff inlen : Nat)
    (ho : outOff + 32 ≤ output.length) (hi : inOff + inlen ≤ input.length) :
    sha3_256 output outOff input inOff inlen =
      .ok (writeAt output outOff (Keccak.sha3_256 ((input.drop inOff).take inlen))) := by
  unfold sha3_256
  obtain ⟨s1, e1, hs1, h1⟩ := keccak_absorb_m0 (uninit 64 111 25) (length_uninit _ _ _) 136 (by omega) (by omega) (by omega) input inOff inlen hi
    _ _ sepByte_sha3
  rw [e1, ok_bind]
  obtain ⟨⟨t, s2⟩, e2, h2, -, -⟩ := squeezeblocks_ok (uninit 8 112 SHA3_256_RATE) 0 1 s1 136 (by omega) (by omega) hs1 (by simp)
  rw [e2, ok_bind]
  simp only at h2 ⊢
  have hl := length_sqBytes 136 (by omega) (keccakF (bitsOfLanes s1)) (length_keccakF _) 1
  rw [writeAt_full _ _ (by rw [hl]; simp)] at h2
  rw [copyLoop_ok _ _ _ _ (by rw [h2, hl]; omega) ho, h2, h1, Keccak.sha3_256,
    show (256 : Nat) = 8 * 32 from rfl, show 1600 - 512 = 8 * 136 from rfl, sponge_bytes 136 (by omega) (by omega) _ 32 1 (by omega)]

theorem sha3_512_m0 (output : List Byte) (outOff : Nat) (input : List Byte) (inOff inlen : Nat)
    (ho : outOff + 64 ≤ output.length) (hi : inOff + inlen ≤ input.length) :
    sha3_512 output outOff input inOff inlen =
      .ok (writeAt output outOff (Keccak.sha3_512 ((input.drop inOff).take inlen))) := by
  unfold sha3_512
  obtain ⟨s1, e1, hs1, h1⟩ := keccak_absorb_m0 (uninit 64 113 25) (length_uninit _ _ _) 72 (by omega) (by omega) (by omega) input inOff inlen hi
    _ _ sepByte_sha3
  rw [e1, ok_bind]
  obtain ⟨⟨t, s2⟩, e2, h2, -, -⟩ := squeezeblocks_ok (uninit 8 114 SHA3_512_RATE) 0 1 s1 72 (by omega) (by omega) hs1 (by simp)
  rw [e2, ok_bind]
  simp only at h2 ⊢
  have hl := length_sqBytes 72 (by omega) (keccakF (bitsOfLanes s1)) (length_keccakF _) 1
  rw [writeAt_full _ _ (by rw [hl]; simp)] at h2
  rw [copyLoop_ok _ _ _ _ (by rw [h2, hl]; omega) ho, h2, h1, Keccak.sha3_512,
    show (512 : Nat) = 8 * 64 from rfl, show 1600 - 1024 = 8 * 72 from rfl, sponge_bytes 72 (by omega) (by omega) _ 64 1 (by omega)]

/-! ### cSHAKE -/

omit [Permutation] [StatePermute] [Permutes] in
theorem sepByte_cshake : SepByte 0x04 [false, false] := ⟨by decide, by decide⟩

theorem cshake_m0 (r : Nat) (hr8 : r % 8 = 0) (hr0 : 0 < r) (hr : r < 200) (b1 : Byte) (s : List (BitVec 64)) (hs : s.length = 25)
    (cstm : BitVec 16) (output : List Byte) (outOff outlen : Nat) (input : List Byte) (inOff inlen : Nat)
    (ho : outOff + outlen ≤ output.length) (hi : inOff + inlen ≤ input.length) :
    (do let s ← cshake_simple_absorb r b1 s cstm input inOff inlen
        squeezeOut r output outOff outlen s) =
      .ok (writeAt output outOff (bytesOfBits
        (sponge (8 * r) (bitsOfBytes ((input.drop inOff).take inlen) ++ [false, false]) (8 * outlen)))) := by
  unfold cshake_simple_absorb
  rw [zeroState_ok s hs, ok_bind, wr_ok (by rw [List.length_replicate]; omega), ok_bind]
  obtain ⟨s1, e1, hs1, -⟩ := Permutes.ok ((List.replicate 25 (0 : BitVec 64)).set 0 (sepLane b1 cstm))
    (by rw [List.length_set, List.length_replicate])
  rw [e1, ok_bind]
  exact xof_ok r hr8 hr0 hr s1 hs1 _ _ _ _ _ _ _ _ sepByte_cshake ho hi

theorem cshake128_m0 (output : List Byte) (outOff outlen : Nat) (cstm : BitVec 16) (input : List Byte) (inOff inlen : Nat)
    (ho : outOff + outlen ≤ output.length) (hi : inOff + inlen ≤ input.length) :
    cshake128_simple output outOff outlen cstm input inOff inlen = .ok (writeAt output outOff (bytesOfBits
      (sponge (8 * 168) (bitsOfBytes ((input.drop inOff).take inlen) ++ [false, false]) (8 * outlen)))) :=
  cshake_m0 168 (by omega) (by omega) (by omega) _ _ (length_uninit _ _ _) _ _ _ _ _ _ _ ho hi

theorem cshake256_m0 (output : List Byte) (outOff outlen : Nat) (cstm : BitVec 16) (input : List Byte) (inOff inlen : Nat)
    (ho : outOff + outlen ≤ output.length) (hi : inOff + inlen ≤ input.length) :
    cshake256_simple output outOff outlen cstm input inOff inlen = .ok (writeAt output outOff (bytesOfBits
      (sponge (8 * 136) (bitsOfBytes ((input.drop inOff).take inlen) ++ [false, false]) (8 * outlen)))) :=
  cshake_m0 136 (by omega) (by omega) (by omega) _ _ (length_uninit _ _ _) _ _ _ _ _ _ _ ho hi

end Saber.M0

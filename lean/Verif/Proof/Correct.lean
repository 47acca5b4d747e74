import Verif.Spec.Noise
import Verif.Proof.RoundTrip
import Verif.Proof.Kem
/-!
# Correctness of the scheme

Pure mathematics about the specification: when does decryption return the encrypted message, and when do encapsulation and
decapsulation agree.
-/
namespace Saber
open Spec

theorem roundP_spec (x : Poly) (k : Fin 256) : (8 * roundP x k - (x k + roundErr x k)) % 8192 = 0 := by
  unfold roundP roundErr Spec.h1
  omega

theorem roundP_range (x : Poly) (k : Fin 256) : 0 ≤ roundP x k ∧ roundP x k < 1024 := by
  unfold roundP
  omega

theorem negMul_mul_left (c : Int) (a b : Poly) (k : Fin 256) : negMul (fun i => c * a i) b k = c * negMul a b k := by
  unfold negMul
  rw [Finset.mul_sum]
  apply Finset.sum_congr rfl
  intro i _
  ring

theorem innerProd_mul_left {l : Nat} (c : Int) (b s : PVec l) (k : Fin 256) :
    innerProd (fun j i => c * b j i) s k = c * innerProd b s k := by
  unfold innerProd
  rw [Finset.mul_sum]
  exact Finset.sum_congr rfl fun j _ => negMul_mul_left c (b j) (s j) k

theorem innerProd_add_left {l : Nat} (b b' s : PVec l) (k : Fin 256) :
    innerProd (fun j i => b j i + b' j i) s k = innerProd b s k + innerProd b' s k := by
  unfold innerProd
  rw [← Finset.sum_add_distrib]
  exact Finset.sum_congr rfl fun j _ => negMul_add_left (b j) (b' j) (s j) k

/-- The two sides' values differ by the combination of the rounding errors with the secrets. -/
theorem value_difference {l : Nat} (A : PMat l) (s s' : PVec l) (k : Fin 256) :
    (8 * innerProd (fun i => roundP (matVec A s' i)) s k
      - 8 * innerProd (fun i => roundP (matVec (transpose A) s i)) s' k) % 8192
    = (innerProd (fun i => roundErr (matVec A s' i)) s k - innerProd (fun i => roundErr (matVec (transpose A) s i)) s' k) % 8192 := by
  have key : ∀ (x s : PVec l), (8 * innerProd (fun i => roundP (x i)) s k) % 8192 =
      (innerProd x s k + innerProd (fun i => roundErr (x i)) s k) % 8192 := by
    intro x s
    rw [← innerProd_mul_left, ← innerProd_add_left]
    have : EqMod (8192 : Nat) (innerProd (fun j i => 8 * roundP (x j) i) s) (innerProd (fun j i => x j i + roundErr (x j) i) s) := by
      apply innerProd_congr
      · intro j i
        have := roundP_spec (x j) i
        beta_reduce
        omega
      · intro j; exact EqMod.refl _ _
    exact this k
  have h1 := key (matVec A s') s
  have h2 := key (matVec (transpose A) s) s'
  have h3 : innerProd (matVec (transpose A) s) s' k = innerProd (matVec A s') s k := by rw [innerProd_adjoint]
  beta_reduce at h1 h2
  omega

/-- Decoding, coefficient by coefficient.  `v` is the decryptor's value, `v'` the encryptor's. -/
theorem decode_iff (eT : Nat) (he : eT = 3 ∨ eT = 4 ∨ eT = 6) (v v' m cm : Poly) (k : Fin 256) (hm : m k = 0 ∨ m k = 1)
    (hc : cm k = encodeMsg eT v' m k) :
    decodeMsg eT v cm k = m k ↔ (8 * v k - 8 * v' k + 8 * cutErr eT v' k + 2048) % 8192 < 4096 := by
  unfold decodeMsg
  rw [hc]
  unfold encodeMsg cutErr Spec.h2 Spec.h1
  rcases he with rfl | rfl | rfl <;> rcases hm with h | h <;> rw [h] <;> norm_num <;> omega

theorem decode_bit (eT : Nat) (v cm : Poly) (k : Fin 256) : decodeMsg eT v cm k = 0 ∨ decodeMsg eT v cm k = 1 := by
  unfold decodeMsg
  omega

theorem encode_range (eT : Nat) (he : eT = 3 ∨ eT = 4 ∨ eT = 6) (v m : Poly) (k : Fin 256) :
    0 ≤ encodeMsg eT v m k ∧ encodeMsg eT v m k < 2 ^ eT := by
  unfold encodeMsg
  rcases he with rfl | rfl | rfl <;> norm_num <;> omega

theorem unpack_bit (bs : List Byte) (k : Fin 256) : unpack 1 bs k = 0 ∨ unpack 1 bs k = 1 := by
  have := unpack_range 1 bs k
  omega

/-- Decryption of an honest encryption, bit by bit. -/
theorem pke_bit_iff (P : Params) (he : P.eT = 3 ∨ P.eT = 4 ∨ P.eT = 6) (seedA seedS m seedS' : List Byte) (k : Fin 256) :
    unpack 1 (pkeDec P (pkeKeyGenSk P seedS) (pkeEnc P m seedS' (pkeKeyGenPk P seedA seedS))) k = unpack 1 m k ↔
      NoiseOk (noise P.eT (genMatrix P seedA) (genSecret P seedS) (genSecret P seedS')) k := by
  unfold pkeDec
  dsimp only
  rw [← List.append_nil (pack 1 _), unpack_pack]
  generalize hpk : pkeKeyGenPk P seedA seedS = pk
  have hA : pk.drop (P.l * 320) = seedA := by
    rw [← hpk, pkeKeyGenPk, List.drop_append, List.drop_of_length_le (by rw [length_packVec])]
    rw [length_packVec, Nat.sub_self]; rfl
  have hb : ∀ i, unpackVec 10 P.l pk i = roundP (matVec (transpose (genMatrix P seedA)) (genSecret P seedS) i) := by
    intro i
    funext n
    rw [← hpk, pkeKeyGenPk, unpackVec_packVec]
    have := roundP_range (matVec (transpose (genMatrix P seedA)) (genSecret P seedS) i) n
    exact Int.emod_eq_of_lt this.1 this.2
  unfold pkeEnc
  dsimp only
  rw [hA]
  have hb' : (fun i => unpackVec 10 P.l pk i) = fun i => roundP (matVec (transpose (genMatrix P seedA)) (genSecret P seedS) i) := funext hb
  change unpackVec 10 P.l pk = _ at hb'
  rw [hb']
  generalize hA' : genMatrix P seedA = A
  generalize hs : genSecret P seedS = s
  generalize hs' : genSecret P seedS' = s'
  generalize hm : unpack 1 m = mp
  have hmk : mp k = 0 ∨ mp k = 1 := by rw [← hm]; exact unpack_bit m k
  -- the ciphertext components
  have hc1 : unpackVec 10 P.l (packVec 10 (fun i => roundP (matVec A s' i)) ++
      pack P.eT (encodeMsg P.eT (innerProd (fun i => roundP (matVec (transpose A) s i)) s') mp)) = fun i => roundP (matVec A s' i) := by
    funext i n
    rw [unpackVec_packVec]
    have := roundP_range (matVec A s' i) n
    exact Int.emod_eq_of_lt this.1 this.2
  have hc2 : ∀ n, unpack P.eT ((packVec 10 (fun i => roundP (matVec A s' i)) ++
      pack P.eT (encodeMsg P.eT (innerProd (fun i => roundP (matVec (transpose A) s i)) s') mp)).drop (P.l * 320)) n =
        encodeMsg P.eT (innerProd (fun i => roundP (matVec (transpose A) s i)) s') mp n := by
    intro n
    rw [List.drop_append, List.drop_of_length_le (by rw [length_packVec]), length_packVec, Nat.sub_self, List.drop_zero, List.nil_append,
      ← List.append_nil (pack _ _), unpack_pack]
    have := encode_range P.eT he (innerProd (fun i => roundP (matVec (transpose A) s i)) s') mp n
    exact Int.emod_eq_of_lt this.1 this.2
  rw [hc1]
  have hsk : ∀ i, EqMod (1024 : Nat) (unpackVec 13 P.l (pkeKeyGenSk P seedS) i) (s i) := by
    intro i n
    rw [pkeKeyGenSk, ← List.append_nil (packVec _ _), unpackVec_packVec, hs]
    omega
  have hv : EqMod (1024 : Nat) (innerProd (fun i => roundP (matVec A s' i)) (unpackVec 13 P.l (pkeKeyGenSk P seedS)))
      (innerProd (fun i => roundP (matVec A s' i)) s) := innerProd_congr (fun _ => EqMod.refl _ _) hsk
  rw [show (decodeMsg P.eT (innerProd (fun i => roundP (matVec A s' i)) (unpackVec 13 P.l (pkeKeyGenSk P seedS))) _ k) % 2 ^ 1 =
    decodeMsg P.eT (innerProd (fun i => roundP (matVec A s' i)) (unpackVec 13 P.l (pkeKeyGenSk P seedS))) _ k from by
      rcases decode_bit P.eT (innerProd (fun i => roundP (matVec A s' i)) (unpackVec 13 P.l (pkeKeyGenSk P seedS))) _ k with h | h <;>
        rw [h] <;> rfl]
  rw [decode_iff P.eT he _ (innerProd (fun i => roundP (matVec (transpose A) s i)) s') mp _ k hmk (hc2 k)]
  unfold NoiseOk noise
  have h1 := value_difference A s s' k
  have h2 := hv k
  generalize innerProd (fun i => roundP (matVec A s' i)) (unpackVec 13 P.l (pkeKeyGenSk P seedS)) k = v0 at *
  generalize innerProd (fun i => roundP (matVec A s' i)) s k = v at *
  generalize cutErr P.eT (innerProd (fun i => roundP (matVec (transpose A) s i)) s') k = c at *
  generalize innerProd (fun i => roundP (matVec (transpose A) s i)) s' k = v' at *
  generalize innerProd (fun i => roundErr (matVec A s' i)) s k = a at *
  generalize innerProd (fun i => roundErr (matVec (transpose A) s i)) s' k = b at *
  clear hb hb' hc1 hc2 hsk hv hmk hA
  constructor <;> intro h <;> omega

theorem bytes_eq_of_unpack {a b : List Byte} (ha : a.length = 32) (hb : b.length = 32) (h : ∀ k, unpack 1 a k = unpack 1 b k) : a = b := by
  have := congrArg (pack 1) (funext h)
  rwa [pack_unpack _ _ (by omega), pack_unpack _ _ (by omega), List.take_of_length_le (by omega), List.take_of_length_le (by omega)] at this

/-- Decryption returns the message if and only if the noise is in range everywhere. -/
theorem pke_correct_iff (P : Params) (he : P.eT = 3 ∨ P.eT = 4 ∨ P.eT = 6) (seedA seedS m seedS' : List Byte) (hm : m.length = 32) :
    pkeDec P (pkeKeyGenSk P seedS) (pkeEnc P m seedS' (pkeKeyGenPk P seedA seedS)) = m ↔
      ∀ k, NoiseOk (noise P.eT (genMatrix P seedA) (genSecret P seedS) (genSecret P seedS')) k := by
  constructor
  · intro h k
    rw [← pke_bit_iff P he seedA seedS m seedS' k, h]
  · intro h
    exact bytes_eq_of_unpack (length_pkeDec _ _ _) hm fun k => (pke_bit_iff P he seedA seedS m seedS' k).2 (h k)

/-! ### The KEM -/

theorem skCpa_kemSk (P : Params) (r1 r2 z : List Byte) : skCpa P (kemSk P r1 r2 z) = pkeKeyGenSk P r2 := by
  have l := length_pkeKeyGenSk P r2
  unfold skCpa kemSk
  rw [List.append_assoc, List.append_assoc, List.take_append_of_le_length (by omega), List.take_of_length_le (by omega)]

theorem skPk_kemSk (P : Params) (r1 r2 z : List Byte) : skPk P (kemSk P r1 r2 z) = kemPk P r1 r2 := by
  have l := length_pkeKeyGenSk P r2
  have l2 := length_kemPk P r1 r2
  unfold skPk kemSk
  rw [List.append_assoc, List.append_assoc, List.drop_append, List.drop_of_length_le (by omega), l, Nat.sub_self, List.drop_zero, List.nil_append,
    List.take_append_of_le_length (by omega), List.take_of_length_le (by omega)]

theorem skHpk_kemSk (P : Params) (r1 r2 z : List Byte) : skHpk P (kemSk P r1 r2 z) = Keccak.sha3_256 (kemPk P r1 r2) := by
  have l := length_pkeKeyGenSk P r2
  have l2 := length_kemPk P r1 r2
  have l3 : (pkeKeyGenSk P r2 ++ kemPk P r1 r2).length = P.l * 416 + (P.l * 320 + 32) := by rw [List.length_append]; omega
  have l4 := length_sha3_256 (kemPk P r1 r2)
  unfold skHpk kemSk
  rw [List.append_assoc, List.drop_append, List.drop_of_length_le (by omega), l3, Nat.sub_self, List.drop_zero, List.nil_append,
    List.take_append_of_le_length (by omega), List.take_of_length_le (by omega)]

theorem skZ_kemSk (P : Params) (r1 r2 z : List Byte) (hz : z.length = 32) : skZ P (kemSk P r1 r2 z) = z := by
  have l := length_pkeKeyGenSk P r2
  have l2 := length_kemPk P r1 r2
  have l4 := length_sha3_256 (kemPk P r1 r2)
  have l3 : (pkeKeyGenSk P r2 ++ kemPk P r1 r2 ++ Keccak.sha3_256 (kemPk P r1 r2)).length = P.l * 416 + (P.l * 320 + 32) + 32 := by
    rw [List.length_append, List.length_append]; omega
  unfold skZ kemSk
  rw [List.drop_append, List.drop_of_length_le (by omega), l3, Nat.sub_self, List.drop_zero, List.nil_append, List.take_of_length_le (by omega)]

/-- The coins of an encapsulation. -/
def encapsCoins (m0 pk : List Byte) : List Byte := (kemKr (Keccak.sha3_256 m0) (Keccak.sha3_256 pk)).drop 32

theorem kem_agree (P : Params) (he : P.eT = 3 ∨ P.eT = 4 ∨ P.eT = 6) (r1 r2 z m0 : List Byte)
    (h : ∀ k, NoiseOk (noise P.eT (genMatrix P (Keccak.shake128 r1 32)) (genSecret P r2)
      (genSecret P (encapsCoins m0 (kemPk P r1 r2)))) k) :
    decaps P (kemSk P r1 r2 z) (encapsC P m0 (kemPk P r1 r2)) = encapsK P m0 (kemPk P r1 r2) := by
  have hm : decapsM P (kemSk P r1 r2 z) (encapsC P m0 (kemPk P r1 r2)) = Keccak.sha3_256 m0 := by
    unfold decapsM
    rw [skCpa_kemSk]
    exact (pke_correct_iff P he (Keccak.shake128 r1 32) r2 (Keccak.sha3_256 m0) _ (length_sha3_256 _)).2 h
  have hk : decapsKr P (kemSk P r1 r2 z) (encapsC P m0 (kemPk P r1 r2)) = kemKr (Keccak.sha3_256 m0) (Keccak.sha3_256 (kemPk P r1 r2)) := by
    unfold decapsKr
    rw [hm, skHpk_kemSk]
  unfold decaps
  have hr : encapsC P m0 (kemPk P r1 r2) = reEncrypt P (kemSk P r1 r2 z) (encapsC P m0 (kemPk P r1 r2)) := by
    unfold reEncrypt
    rw [hm, hk, skPk_kemSk]; rfl
  rw [if_pos hr, hk]
  rfl

end Saber

import Verif.Proof.M0.Kem
import Verif.Proof.Correct
/-!
# The Cortex-M0 port: interoperability and decryption
-/
namespace Saber.M0
open Saber Spec

theorem m0Encode_range (v m : Poly) (k : Fin 256) : 0 ≤ m0EncodeMsg v m k ∧ m0EncodeMsg v m k < 16 := by
  unfold m0EncodeMsg
  omega

/-- The two encodings of one coefficient are equal unless rounding carries. -/
theorem encode_eq_iff (v m : Poly) (k : Fin 256) (hm : m k = 0 ∨ m k = 1) :
    m0EncodeMsg v m k = encodeMsg 4 v m k ↔ v k % 64 < 60 := by
  unfold m0EncodeMsg encodeMsg Spec.h1
  rcases hm with h | h <;> rw [h] <;> norm_num <;> omega

theorem pack_inj (k : Nat) {p p' : Poly} (hp : ∀ i, 0 ≤ p i ∧ p i < 2 ^ k) (hp' : ∀ i, 0 ≤ p' i ∧ p' i < 2 ^ k) (h : pack k p = pack k p') :
    p = p' := by
  funext i
  have h1 := unpack_pack k p i []
  have h2 := unpack_pack k p' i []
  rw [h, h2, Int.emod_eq_of_lt (hp i).1 (hp i).2, Int.emod_eq_of_lt (hp' i).1 (hp' i).2] at h1
  exact h1.symm

/-- The ciphertext of the port is that of the reference implementation if and only if no coefficient of `v'` is in the last sixteenth
of a block of 64. -/
theorem enc_eq_iff [Keccak.Permutation] (m S pk : List Byte) :
    m0PkeEnc m S pk = pkeEnc saber m S pk ↔ ∀ k, innerProd (unpackVec 10 3 pk) (genSecret saber S) k % 64 < 60 := by
  have he : ∀ k, encodeMsg 4 (innerProd (unpackVec 10 3 pk) (genSecret saber S)) (unpack 1 m) k < 2 ^ 4 := fun k =>
    (encode_range 4 (by omega) _ _ k).2
  constructor
  · intro h k
    rw [← encode_eq_iff _ (unpack 1 m) k (unpack_bit m k)]
    have h2 := List.append_cancel_left (as := packVec 10 fun i : Fin 3 => roundP (matVec (genMatrix saber (pk.drop 960)) (genSecret saber S) i)) h
    exact congrFun (pack_inj 4 (fun i => m0Encode_range _ _ i) (fun i => encode_range 4 (by omega) _ _ i) h2) k
  · intro h
    have e : m0EncodeMsg (innerProd (unpackVec 10 3 pk) (genSecret saber S)) (unpack 1 m) =
        encodeMsg 4 (innerProd (unpackVec 10 3 pk) (genSecret saber S)) (unpack 1 m) := by
      funext k
      exact (encode_eq_iff _ (unpack 1 m) k (unpack_bit m k)).2 (h k)
    unfold m0PkeEnc
    dsimp only
    rw [e]
    rfl

theorem m0_decode_iff (v v' m cm : Poly) (k : Fin 256) (hm : m k = 0 ∨ m k = 1) (hc : cm k = m0EncodeMsg v' m k) :
    m0DecodeMsg v cm k = m k ↔ (8 * v k - 8 * v' k + 8 * (v' k % 64 - 32) + 2048) % 8192 < 4096 := by
  unfold m0DecodeMsg
  rw [hc]
  unfold m0EncodeMsg
  rcases hm with h | h <;> rw [h] <;> norm_num <;> omega

theorem m0_bit_iff [Keccak.Permutation] (seedA seedS m seedS' : List Byte) (k : Fin 256) :
    m0DecBits (pkeKeyGenSk saber seedS) (m0PkeEnc m seedS' (pkeKeyGenPk saber seedA seedS)) k = unpack 1 m k ↔
      NoiseOk (m0Noise (genMatrix saber seedA) (genSecret saber seedS) (genSecret saber seedS')) k := by
  unfold m0DecBits
  generalize hpk : pkeKeyGenPk saber seedA seedS = pk
  have hA : pk.drop 960 = seedA := by
    rw [← hpk, pkeKeyGenPk, List.drop_append, List.drop_of_length_le (by rw [length_packVec]; exact le_refl 960), length_packVec]
    rfl
  have hb : unpackVec 10 3 pk = fun i : Fin 3 => roundP (matVec (transpose (genMatrix saber seedA)) (genSecret saber seedS) i) := by
    funext i n
    rw [← hpk, pkeKeyGenPk]
    refine (unpackVec_packVec 10 (pubVec saber seedA seedS) seedA i n).trans ?_
    have := roundP_range (matVec (transpose (genMatrix saber seedA)) (genSecret saber seedS) i) n
    exact Int.emod_eq_of_lt this.1 this.2
  have hsk : ∀ i, EqMod (1024 : Nat) (unpackVec 13 3 (pkeKeyGenSk saber seedS) i) (genSecret saber seedS i) := by
    intro i n
    have := unpackVec_packVec 13 (genSecret saber seedS) [] i n
    rw [List.append_nil] at this
    change unpackVec 13 3 (pkeKeyGenSk saber seedS) i n = _ at this
    rw [this]
    omega
  unfold m0PkeEnc
  dsimp only
  rw [hA, hb]
  generalize genMatrix saber seedA = A at *
  generalize hs : genSecret saber seedS = s at *
  generalize genSecret saber seedS' = s' at *
  generalize hm : unpack 1 m = mp
  have hmk : mp k = 0 ∨ mp k = 1 := by rw [← hm]; exact unpack_bit m k
  change PMat 3 at A
  change PVec 3 at s
  change PVec 3 at s'
  have hc1 : unpackVec 10 3 (packVec 10 (fun i : Fin 3 => roundP (matVec A s' i)) ++
      pack 4 (m0EncodeMsg (innerProd (fun i : Fin 3 => roundP (matVec (transpose A) s i)) s') mp)) = fun i : Fin 3 => roundP (matVec A s' i) := by
    funext i n
    rw [unpackVec_packVec]
    have := roundP_range (matVec A s' i) n
    exact Int.emod_eq_of_lt this.1 this.2
  have hc2 : unpack 4 ((packVec 10 (fun i : Fin 3 => roundP (matVec A s' i)) ++
      pack 4 (m0EncodeMsg (innerProd (fun i : Fin 3 => roundP (matVec (transpose A) s i)) s') mp)).drop 960) k =
        m0EncodeMsg (innerProd (fun i : Fin 3 => roundP (matVec (transpose A) s i)) s') mp k := by
    rw [List.drop_append, List.drop_of_length_le (by rw [length_packVec]), length_packVec, Nat.sub_self, List.drop_zero, List.nil_append,
      ← List.append_nil (pack _ _), unpack_pack]
    have := m0Encode_range (innerProd (fun i : Fin 3 => roundP (matVec (transpose A) s i)) s') mp k
    exact Int.emod_eq_of_lt this.1 this.2
  have hv : EqMod (1024 : Nat) (innerProd (fun i : Fin 3 => roundP (matVec A s' i)) (unpackVec 13 3 (pkeKeyGenSk saber seedS)))
      (innerProd (fun i : Fin 3 => roundP (matVec A s' i)) s) := innerProd_congr (fun _ => EqMod.refl _ _) hsk
  refine Iff.trans (m0_decode_iff (innerProd (unpackVec 10 3 (packVec 10 (fun i : Fin 3 => roundP (matVec A s' i)) ++
      pack 4 (m0EncodeMsg (innerProd (fun i : Fin 3 => roundP (matVec (transpose A) s i)) s') mp))) (unpackVec 13 3 (pkeKeyGenSk saber seedS)))
    (innerProd (fun i : Fin 3 => roundP (matVec (transpose A) s i)) s') mp _ k hmk hc2) ?_
  rw [hc1]
  show _ ↔ NoiseOk (m0Noise (l := 3) A s s') k
  unfold NoiseOk m0Noise
  have h1 := value_difference A s s' k
  have h2 := hv k
  generalize innerProd (fun i : Fin 3 => roundP (matVec A s' i)) (unpackVec 13 3 (pkeKeyGenSk saber seedS)) k = v0 at *
  generalize innerProd (fun i : Fin 3 => roundP (matVec A s' i)) s k = v at *
  generalize innerProd (fun i : Fin 3 => roundP (matVec (transpose A) s i)) s' k = v' at *
  generalize innerProd (fun i : Fin 3 => roundErr (matVec A s' i)) s k = a at *
  generalize innerProd (fun i : Fin 3 => roundErr (matVec (transpose A) s i)) s' k = b at *
  clear hb hc1 hc2 hsk hv hmk hA
  constructor <;> intro h <;> omega

end Saber.M0

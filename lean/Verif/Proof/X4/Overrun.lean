import Verif.Proof.X4.Kem
/-!
# `kem.c` of SaberX4: the four slices, and the calls with the arrays of the code
-/
namespace Saber.X4
open Spec

theorem length_slices {n : Nat} {x : List Byte} (hx : x.length = 4 * n) (l : Fin 4) : (slices n x l).length = n := by
  have h := l.isLt
  have : l.val * n + n ≤ 4 * n := by rw [← Nat.succ_mul]; exact Nat.mul_le_mul_right _ h
  unfold slices
  rw [List.length_take, List.length_drop, hx]
  omega

theorem joined_eq {n : Nat} {x : List Byte} (hx : x.length = 4 * n) (f : Fam (List Byte)) : joined n f x = f 0 ++ f 1 ++ f 2 ++ f 3 := by
  unfold joined
  rw [List.drop_of_length_le (by omega), List.append_nil]

theorem stepErr {α β : Type} {m : CM α} {e : UB} {f : α → CM β} (h : m = .error e) : (m >>= f) = .error e := by rw [h]; rfl

theorem GenMatrix4x_overrun {a : Fam VMat} {seed : Fam (List Byte)} (hs : ∀ l, (seed l).length = 32) : GenMatrix4x SHAKE256_RATE a seed = .error .oob :=
  stepErr (shake128x4_overrun _ _ _ _ _ _ (fun l => by simp) (fun l => by rw [hs l]; decide) (by decide))

theorem indcpa_kem_keypair_overrun {pk sk seed noiseseed : Fam (List Byte)} (hs : ∀ l, (seed l).length = 32) :
    indcpa_kem_keypair SHAKE256_RATE pk sk seed noiseseed = .error .oob :=
  stepErr (shake128x4_overrun _ _ _ _ _ _ (fun l => by rw [hs l]; decide) (fun l => by rw [hs l]; decide) (by decide))

theorem indcpa_kem_enc_overrun {m noise pk c : Fam (List Byte)} {noiseOff pkOff : Nat} (hpk : ∀ l, pkOff + 992 ≤ (pk l).length) :
    indcpa_kem_enc SHAKE256_RATE m noise noiseOff pk pkOff c = .error .oob := by
  unfold indcpa_kem_enc
  have hcopy := copyBytes4x_ok 32 (fun l : Fin 4 => uninit 8 (600 + l.val) 32) (fun _ => 0) pk (fun _ => pkOff + 960)
    (fun l => by simp) (fun l => by have := hpk l; omega)
  simp only [Nat.zero_add] at hcopy
  rw [show SEEDBYTES = 32 from rfl, show PSet.saber.POLYVECCOMPRESSEDBYTES = 960 from rfl, hcopy, ok_bind]
  refine stepErr (GenMatrix4x_overrun fun l => ?_)
  have := hpk l
  rw [length_writeAt _ _ _ (by simp)]
  simp

theorem keypair4x_overrun {σ : Type} (rb : RandomBytes σ) (st : Nat → σ) (x y z : Fam (List Byte))
    (hx : ∀ l : Fin 4, Delivers rb 32 (st (3 * l)) (x l) (st (3 * l + 1))) (hy : ∀ l : Fin 4, Delivers rb 32 (st (3 * l + 1)) (y l) (st (3 * l + 2)))
    (hz : ∀ l : Fin 4, Delivers rb 32 (st (3 * l + 2)) (z l) (st (3 * l + 3))) (pk sk : Fam (List Byte)) :
    crypto_kem_keypair4x SHAKE256_RATE rb pk sk (st 0) = .error .oob := by
  unfold crypto_kem_keypair4x
  refine stepOk (draws3_ok rb st x y z hx hy hz _ _ _ (fun l => length_uninit _ _ _) (fun l => length_uninit _ _ _) (fun l => length_uninit _ _ _)) ?_
  exact stepErr (indcpa_kem_keypair_overrun fun l => (hx l).1)

theorem enc4x_overrun {σ : Type} (rb : RandomBytes σ) (st : Nat → σ) (m : Fam (List Byte)) (hm : ∀ l : Fin 4, Delivers rb 32 (st l) (m l) (st (l + 1)))
    (c k pk : Fam (List Byte)) (hpk : ∀ l, (pk l).length = 992) : crypto_kem_enc4x SHAKE256_RATE rb c k pk (st 0) = .error .oob := by
  unfold crypto_kem_enc4x
  dsimp only
  refine stepOk (draws1_ok rb st m hm _ (fun l => by rw [length_uninit]; decide)) ?_
  dsimp only
  have lm : ∀ l, (m l).length = 32 := fun l => (hm l).1
  have lw : ∀ l : Fin 4, (writeAt (uninit 8 (840 + l.val) 64) 0 (m l)).length = 64 := fun l => by rw [length_writeAt _ _ _ (by simp [lm l])]; simp
  have lh : ∀ x, (Keccak.sha3_256 x).length = 32 := fun x => length_sha3_256 _
  have l2 : ∀ (l : Fin 4) (b : List Byte), (writeAt (writeAt (uninit 8 (840 + l.val) 64) 0 (m l)) 0 (Keccak.sha3_256 b)).length = 64 := fun l b => by
    rw [length_writeAt _ _ _ (by rw [lw l, lh]; decide), lw l]
  refine stepOk (sha3_256x4_ok _ _ _ _ _ (fun l => by rw [lw l]; decide) (fun l => by rw [lw l]; decide)) ?_
  refine stepOk (sha3_256x4_ok _ _ _ _ _ (fun l => by rw [l2 l]) (fun l => by rw [hpk l]; decide)) ?_
  refine stepOk (sha3_512x4_ok _ _ _ _ _ (fun l => by simp) (fun l => by rw [length_writeAt _ _ _ (by rw [l2 l, lh]), l2 l])) ?_
  exact stepErr (indcpa_kem_enc_overrun fun l => by rw [hpk l])

theorem dec4x_overrun (k c sk : Fam (List Byte)) (hc : ∀ l, (c l).length = 1088) (hsk : ∀ l, (sk l).length = 2304) :
    crypto_kem_dec4x SHAKE256_RATE k c sk = .error .oob := by
  unfold crypto_kem_dec4x
  dsimp only
  refine stepOk (indcpa_kem_dec_ok (fun l => by rw [hsk l]; decide) (fun l => by rw [hc l]) (fun l => by simp)) ?_
  have lb : ∀ l : Fin 4, (writeAt (uninit 8 (860 + l.val) 64) 0 (USpec.pkeDec spec ((sk l).take 1248) ((c l).take 1088))).length = 64 := fun l => by
    rw [length_writeAt _ _ _ (by simp [lenDec])]; simp
  refine stepOk (copyBytes4x_ok 32 (fun l : Fin 4 => writeAt (uninit 8 (860 + l.val) 64) 0 (USpec.pkeDec spec ((sk l).take 1248) ((c l).take 1088))) (fun _ => 32) sk
    (fun _ => PSet.saber.SECRETKEYBYTES - 64) (fun l => by rw [lb l]) (fun l => by rw [hsk l]; decide)) ?_
  refine stepOk (sha3_512x4_ok _ _ _ _ _ (fun l => by simp) (fun l => ?_)) ?_
  · rw [length_writeAt _ _ _ (by rw [lb l, List.length_take, List.length_drop, hsk l]; decide), lb l]
  exact stepErr (indcpa_kem_enc_overrun fun l => by rw [hsk l]; decide)

end Saber.X4

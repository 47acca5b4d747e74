import Verif.Proof.X4.Pke
import Verif.Proof.Avx.Kem
import Verif.Props.Avx
/-!
# `kem4x.c` and `kem.c` of SaberX4, lane by lane
-/
namespace Saber.X4
open Spec

/-- One statement on four objects, with the results rewritten. -/
theorem stepFam {α β : Type} {m : CM (Fam α)} {a : Fam α} {f : Fam α → CM β} {r : CM β} (h : m = .ok a) (b : Fam α) (e : ∀ l, a l = b l) (h' : f b = r) :
    (m >>= f) = r := by
  rw [h, show a = b from funext e]; exact h'

theorem setFam_four {α : Type} (x y : Fam α) : setFam (setFam (setFam (setFam x 0 (y 0)) 1 (y 1)) 2 (y 2)) 3 (y 3) = y := by
  funext l; fin_cases l <;> rfl

/-- The twelve draws of key generation. -/
theorem draws3_ok {σ : Type} (rb : RandomBytes σ) (st : Nat → σ) (x y z : Fam (List Byte))
    (hx : ∀ l : Fin 4, Delivers rb 32 (st (3 * l)) (x l) (st (3 * l + 1))) (hy : ∀ l : Fin 4, Delivers rb 32 (st (3 * l + 1)) (y l) (st (3 * l + 2)))
    (hz : ∀ l : Fin 4, Delivers rb 32 (st (3 * l + 2)) (z l) (st (3 * l + 3))) (a b c : Fam (List Byte)) (ha : ∀ l, (a l).length = 32)
    (hb : ∀ l, (b l).length = 32) (hc : ∀ l, (c l).length = 32) :
    (four (a, b, c, st 0) fun i (seed_arr, noiseseed_arr, pseudorandom_key_arr, st) => do
        let (x, st) ← rb (seed_arr i) 0 SEEDBYTES st
        let (y, st) ← rb (noiseseed_arr i) 0 32 st
        let (z, st) ← rb (pseudorandom_key_arr i) 0 KEYBYTES st
        .ok (setFam seed_arr i x, setFam noiseseed_arr i y, setFam pseudorandom_key_arr i z, st)) = .ok (x, y, z, st 12) := by
  have hstep : ∀ (l : Fin 4) (a b c : Fam (List Byte)), (a l).length = 32 → (b l).length = 32 → (c l).length = 32 →
      (do
        let (x, st) ← rb (a l) 0 SEEDBYTES (st (3 * l))
        let (y, st) ← rb (b l) 0 32 st
        let (z, st) ← rb (c l) 0 KEYBYTES st
        (.ok (setFam a l x, setFam b l y, setFam c l z, st) : CM (Fam (List Byte) × Fam (List Byte) × Fam (List Byte) × σ))) =
      .ok (setFam a l (x l), setFam b l (y l), setFam c l (z l), st (3 * l + 3)) := by
    intro l a b c ha hb hc
    rw [show SEEDBYTES = 32 from rfl, show KEYBYTES = 32 from rfl, (hx l).2 _ _ (by omega), ok_bind]
    dsimp only
    rw [(hy l).2 _ _ (by omega), ok_bind]
    dsimp only
    rw [(hz l).2 _ _ (by omega), ok_bind]
    dsimp only
    rw [writeAt_full _ _ (by rw [(hx l).1, ha]), writeAt_full _ _ (by rw [(hy l).1, hb]), writeAt_full _ _ (by rw [(hz l).1, hc])]
  unfold four
  refine stepOk (hstep 0 a b c (ha 0) (hb 0) (hc 0)) ?_
  refine stepOk (hstep 1 _ _ _ (ha 1) (hb 1) (hc 1)) ?_
  refine stepOk (hstep 2 _ _ _ (ha 2) (hb 2) (hc 2)) ?_
  refine Eq.trans (b := _) (hstep 3 (setFam (setFam (setFam a 0 (x 0)) 1 (x 1)) 2 (x 2)) (setFam (setFam (setFam b 0 (y 0)) 1 (y 1)) 2 (y 2))
    (setFam (setFam (setFam c 0 (z 0)) 1 (z 1)) 2 (z 2)) (ha 3) (hb 3) (hc 3)) ?_
  rw [setFam_four, setFam_four, setFam_four]
  rfl

/-- The four draws of encapsulation. -/
theorem draws1_ok {σ : Type} (rb : RandomBytes σ) (st : Nat → σ) (m : Fam (List Byte)) (hm : ∀ l : Fin 4, Delivers rb 32 (st l) (m l) (st (l + 1)))
    (a : Fam (List Byte)) (ha : ∀ l, 32 ≤ (a l).length) :
    (four (a, st 0) fun l (buf, st) => do
      let (x, st) ← rb (buf l) 0 32 st
      .ok (setFam buf l x, st)) = .ok ((fun l => writeAt (a l) 0 (m l)), st 4) := by
  have hstep : ∀ (l : Fin 4) (b : Fam (List Byte)), b l = a l → (do
      let (x, st) ← rb (b l) 0 32 (st l)
      (.ok (setFam b l x, st) : CM (Fam (List Byte) × σ))) = .ok (setFam b l (writeAt (a l) 0 (m l)), st (l + 1)) := by
    intro l b hb
    rw [hb, (hm l).2 _ _ (by have := ha l; omega), ok_bind]
  unfold four
  refine stepOk (hstep 0 a rfl) ?_
  refine stepOk (hstep 1 _ rfl) ?_
  refine stepOk (hstep 2 _ rfl) ?_
  refine Eq.trans (b := _) (hstep 3 (setFam (setFam (setFam a 0 (writeAt (a 0) 0 (m 0))) 1 (writeAt (a 1) 0 (m 1))) 2 (writeAt (a 2) 0 (m 2))) rfl) ?_
  exact congrArg (fun z => Except.ok (z, st 4)) (setFam_four a fun l => writeAt (a l) 0 (m l))

theorem lenKemPk (a b : List Byte) (ha : a.length = 32) : (USpec.kemPk spec a b).length = 992 := Avx.length_kemPk Props.fips202_ok .saber a b ha
theorem lenSk (b : List Byte) : (USpec.pkeKeyGenSk spec b).length = 1248 := Avx.length_pkeKeyGenSk .saber _ b
theorem lenEnc (m s pk : List Byte) : (USpec.pkeEnc spec m s pk).length = 1088 := Avx.length_pkeEnc .saber _ m s pk
theorem lenDec (sk c : List Byte) : (USpec.pkeDec spec sk c).length = 32 := Avx.length_pkeDec .saber _ sk c

theorem crypto_kem_keypair4x_ok {σ : Type} (rb : RandomBytes σ) (st : Nat → σ) (x y z : Fam (List Byte))
    (hx : ∀ l : Fin 4, Delivers rb 32 (st (3 * l)) (x l) (st (3 * l + 1))) (hy : ∀ l : Fin 4, Delivers rb 32 (st (3 * l + 1)) (y l) (st (3 * l + 2)))
    (hz : ∀ l : Fin 4, Delivers rb 32 (st (3 * l + 2)) (z l) (st (3 * l + 3))) (pk sk : Fam (List Byte)) (hpk : ∀ l, (pk l).length = 992)
    (hsk : ∀ l, (sk l).length = 2304) :
    crypto_kem_keypair4x 168 rb pk sk (st 0) = .ok (0, fun l => USpec.kemPk spec (x l) (y l), fun l => USpec.kemSk spec (x l) (y l) (z l), st 12) := by
  unfold crypto_kem_keypair4x
  refine stepOk (draws3_ok rb st x y z hx hy hz _ _ _ (fun l => length_uninit _ _ _) (fun l => length_uninit _ _ _) (fun l => length_uninit _ _ _)) ?_
  dsimp only
  refine stepOk (indcpa_kem_keypair_ok hpk (fun l => by rw [hsk l]; decide) (fun l => (hx l).1) (fun l => (hy l).1)) ?_
  dsimp only
  have l1 : ∀ l, (USpec.kemPk spec (x l) (y l)).length = 992 := fun l => lenKemPk _ _ (hx l).1
  have l2 : ∀ l, (USpec.pkeKeyGenSk spec (y l)).length = 1248 := fun l => lenSk _
  have l4 : ∀ l, (Keccak.sha3_256 (USpec.kemPk spec (x l) (y l))).length = 32 := fun l => length_sha3_256 _
  have l5 : ∀ l, (z l).length = 32 := fun l => (hz l).1
  have hcopy := copyBytes4x_ok 992 (fun l => writeAt (sk l) 0 (USpec.pkeKeyGenSk spec (y l))) (fun _ => 1248) (fun l => USpec.kemPk spec (x l) (y l)) (fun _ => 0)
    (fun l => by rw [length_writeAt _ _ _ (by rw [hsk l, l2 l]; decide), hsk l]; decide) (fun l => by rw [l1 l])
  simp only [Nat.zero_add, Nat.add_comm 1248] at hcopy
  refine stepFam hcopy (fun l => writeAt (sk l) 0 (USpec.pkeKeyGenSk spec (y l) ++ USpec.kemPk spec (x l) (y l))) (fun l => ?_) ?_
  · rw [List.drop_zero, List.take_of_length_le (by rw [l1 l]), writeAt_after _ _ _ _ _ (by rw [l2 l]) (by rw [l2 l, l1 l, hsk l]; decide)]
  refine stepFam (sha3_256x4_ok _ _ _ _ _ (fun l => ?_) (fun l => ?_))
    (fun l => writeAt (sk l) 0 (USpec.pkeKeyGenSk spec (y l) ++ USpec.kemPk spec (x l) (y l) ++ Keccak.sha3_256 (USpec.kemPk spec (x l) (y l)))) (fun l => ?_) ?_
  · rw [length_writeAt _ _ _ (by rw [List.length_append, l2 l, l1 l, hsk l]; decide), hsk l]; decide
  · exact Nat.le_of_eq (l1 l).symm
  · have e : (List.take PSet.saber.INDCPA_PUBLICKEYBYTES (List.drop 0 (USpec.pkeKeyGenPk spec (Keccak.shake128 (x l) 32) (y l)))) = USpec.kemPk spec (x l) (y l) := by
      rw [List.drop_zero]
      exact List.take_of_length_le (Nat.le_of_eq (l1 l))
    rw [e, writeAt_after _ _ _ _ _ (by rw [List.length_append, l2 l, l1 l]; rfl) (by rw [List.length_append, l2 l, l1 l, l4 l, hsk l]; decide)]
  have hcopy2 := copyBytes4x_ok 32 (fun l => writeAt (sk l) 0 (USpec.pkeKeyGenSk spec (y l) ++ USpec.kemPk spec (x l) (y l) ++ Keccak.sha3_256 (USpec.kemPk spec (x l) (y l))))
    (fun _ => 2272) z (fun _ => 0)
    (fun l => by rw [length_writeAt _ _ _ (by rw [List.length_append, List.length_append, l2 l, l1 l, l4 l, hsk l]; decide), hsk l]) (fun l => by rw [l5 l])
  have hi : ∀ i, i + PSet.saber.SECRETKEYBYTES - KEYBYTES = 2272 + i := fun i => by
    rw [show PSet.saber.SECRETKEYBYTES = 2304 from rfl, show KEYBYTES = 32 from rfl]; omega
  simp only [hi]
  simp only [Nat.zero_add] at hcopy2
  refine stepFam hcopy2 (fun l => USpec.kemSk spec (x l) (y l) (z l)) (fun l => ?_) ?_
  · rw [List.drop_zero, List.take_of_length_le (by rw [l5 l]), writeAt_after _ _ _ _ _ (by rw [List.length_append, List.length_append, l2 l, l1 l, l4 l])
      (by rw [List.length_append, List.length_append, l2 l, l1 l, l4 l, l5 l, hsk l]),
      writeAt_full _ _ (by rw [List.length_append, List.length_append, List.length_append, l2 l, l1 l, l4 l, l5 l, hsk l])]
    rfl
  rfl

theorem crypto_kem_enc4x_ok {σ : Type} (rb : RandomBytes σ) (st : Nat → σ) (m : Fam (List Byte)) (hm : ∀ l : Fin 4, Delivers rb 32 (st l) (m l) (st (l + 1)))
    (c k pk : Fam (List Byte)) (hc : ∀ l, (c l).length = 1088) (hk : ∀ l, (k l).length = 32) (hpk : ∀ l, (pk l).length = 992) :
    crypto_kem_enc4x 168 rb c k pk (st 0) = .ok (0, fun l => USpec.encapsC spec (m l) (pk l), fun l => USpec.encapsK spec (m l) (pk l), st 4) := by
  unfold crypto_kem_enc4x
  dsimp only
  refine stepOk (draws1_ok rb st m hm _ (fun l => by rw [length_uninit]; decide)) ?_
  dsimp only
  have lm : ∀ l, (m l).length = 32 := fun l => (hm l).1
  have lw : ∀ l : Fin 4, (writeAt (uninit 8 (840 + l.val) 64) 0 (m l)).length = 64 := fun l => by rw [length_writeAt _ _ _ (by simp [lm l])]; simp
  have lh : ∀ x, (Keccak.sha3_256 x).length = 32 := fun x => length_sha3_256 _
  have lg : ∀ x, (Keccak.sha3_512 x).length = 64 := fun x => length_sha3_512 _
  refine stepFam (sha3_256x4_ok _ _ _ _ _ (fun l => by rw [lw l]; decide) (fun l => by rw [lw l]; decide))
    (fun l => writeAt (uninit 8 (840 + l.val) 64) 0 (Keccak.sha3_256 (m l))) (fun l => ?_) ?_
  · have e1 : (writeAt (uninit 8 (840 + l.val) 64) 0 (m l)).take 32 = m l := by
      rw [writeAt_prefix, List.take_append_of_le_length (by rw [lm l]), List.take_of_length_le (by rw [lm l])]
    rw [List.drop_zero, e1]
    rw [writeAt_prefix, writeAt_prefix, writeAt_prefix, List.drop_append_of_le_length (by rw [lh, lm l]), List.drop_of_length_le (by rw [lh, lm l]), List.nil_append,
      lh, lm l]
  have lw2 : ∀ l : Fin 4, (writeAt (uninit 8 (840 + l.val) 64) 0 (Keccak.sha3_256 (m l))).length = 64 := fun l => by rw [length_writeAt _ _ _ (by simp [lh])]; simp
  refine stepFam (sha3_256x4_ok _ _ _ _ _ (fun l => by rw [lw2 l]) (fun l => by rw [hpk l]; decide))
    (fun l => Keccak.sha3_256 (m l) ++ Keccak.sha3_256 (pk l)) (fun l => ?_) ?_
  · rw [List.drop_zero, List.take_of_length_le (by rw [hpk l]; decide), writeAt_after _ _ _ _ _ (by rw [lh]) (by simp [lh]), writeAt_full _ _ (by simp [lh])]
  have lb : ∀ l, (Keccak.sha3_256 (m l) ++ Keccak.sha3_256 (pk l)).length = 64 := fun l => by rw [List.length_append, lh, lh]
  refine stepFam (sha3_512x4_ok _ _ _ _ _ (fun l => by simp) (fun l => by rw [lb l]))
    (fun l => Keccak.sha3_512 (Keccak.sha3_256 (m l) ++ Keccak.sha3_256 (pk l))) (fun l => ?_) ?_
  · rw [List.drop_zero, List.take_of_length_le (by rw [lb l]), writeAt_full _ _ (by simp [lg])]
  refine stepFam (indcpa_kem_enc_ok (fun l => by rw [lb l]; decide) (fun l => by rw [lg]) (fun l => by rw [hpk l]) hc)
    (fun l => USpec.encapsC spec (m l) (pk l)) (fun l => ?_) ?_
  · rw [List.drop_zero, List.take_append_of_le_length (by rw [lh]), List.take_of_length_le (by rw [lh]), List.take_of_length_le (show (pk l).length ≤ 992 by rw [hpk l]),
      List.take_of_length_le (show (List.drop 32 _).length ≤ 32 by rw [List.length_drop, lg])]
    rfl
  have lc : ∀ l, (USpec.encapsC spec (m l) (pk l)).length = 1088 := fun l => lenEnc _ _ _
  refine stepFam (sha3_256x4_ok _ _ _ _ _ (fun l => by rw [lg]) (fun l => Nat.le_of_eq (by rw [lc l]; rfl)))
    (fun l => (USpec.kemKr spec (Keccak.sha3_256 (m l)) (Keccak.sha3_256 (pk l))).take 32 ++ Keccak.sha3_256 (USpec.encapsC spec (m l) (pk l))) (fun l => ?_) ?_
  · rw [List.drop_zero, List.take_of_length_le (show _ ≤ PSet.saber.BYTES_CCA_DEC from Nat.le_of_eq (lc l))]
    unfold writeAt
    rw [List.drop_of_length_le (by rw [lh, lg]), List.append_nil]
    rfl
  have lk : ∀ l, ((USpec.kemKr spec (Keccak.sha3_256 (m l)) (Keccak.sha3_256 (pk l))).take 32 ++ Keccak.sha3_256 (USpec.encapsC spec (m l) (pk l))).length = 64 := fun l => by
    rw [List.length_append, List.length_take, lh, show (USpec.kemKr spec (Keccak.sha3_256 (m l)) (Keccak.sha3_256 (pk l))).length = 64 from lg _]
    decide
  refine stepFam (sha3_256x4_ok _ _ _ _ _ (fun l => by rw [hk l]) (fun l => by rw [lk l])) (fun l => USpec.encapsK spec (m l) (pk l)) (fun l => ?_) rfl
  rw [List.drop_zero, List.take_of_length_le (by rw [lk l]), writeAt_full _ _ (by rw [lh, hk l])]
  rfl

theorem crypto_kem_dec4x_ok (k c sk : Fam (List Byte)) (hk : ∀ l, (k l).length = 32) (hc : ∀ l, (c l).length = 1088) (hsk : ∀ l, (sk l).length = 2304) :
    crypto_kem_dec4x 168 k c sk = .ok (0, fun l => USpec.decaps spec (sk l) (c l)) := by
  have lh : ∀ x, (Keccak.sha3_256 x).length = 32 := fun x => length_sha3_256 _
  have lg : ∀ x, (Keccak.sha3_512 x).length = 64 := fun x => length_sha3_512 _
  have lM : ∀ l, (USpec.decapsM spec (sk l) (c l)).length = 32 := fun l => lenDec _ _
  have lH : ∀ l, (USpec.skHpk spec (sk l)).length = 32 := fun l => by
    show (((sk l).drop 2240).take 32).length = 32
    simp [hsk l]
  have lZ : ∀ l, (USpec.skZ spec (sk l)).length = 32 := fun l => by
    show (((sk l).drop 2272).take 32).length = 32
    simp [hsk l]
  have lK : ∀ l, (USpec.decapsKr spec (sk l) (c l)).length = 64 := fun l => lg _
  have lR : ∀ l, (USpec.reEncrypt spec (sk l) (c l)).length = 1088 := fun l => lenEnc _ _ _
  unfold crypto_kem_dec4x
  dsimp only
  refine stepFam (indcpa_kem_dec_ok (fun l => by rw [hsk l]; decide) (fun l => by rw [hc l]) (fun l => by simp))
    (fun l => writeAt (uninit 8 (860 + l.val) 64) 0 (USpec.decapsM spec (sk l) (c l))) (fun l => ?_) ?_
  · rw [List.take_of_length_le (Nat.le_of_eq (hc l))]; rfl
  have hcopy := copyBytes4x_ok 32 (fun l => writeAt (uninit 8 (860 + l.val) 64) 0 (USpec.decapsM spec (sk l) (c l))) (fun _ => 32) sk (fun _ => PSet.saber.SECRETKEYBYTES - 64)
    (fun l => by rw [length_writeAt _ _ _ (by rw [lM l]; simp)]; simp) (fun l => by rw [hsk l]; decide)
  refine stepFam hcopy (fun l => USpec.decapsM spec (sk l) (c l) ++ USpec.skHpk spec (sk l)) (fun l => ?_) ?_
  · have eH : ((sk l).drop (PSet.saber.SECRETKEYBYTES - 64)).take 32 = USpec.skHpk spec (sk l) := rfl
    rw [eH, writeAt_after _ _ _ _ _ (by rw [lM l]) (by rw [lM l, lH l]; simp), writeAt_full _ _ (by rw [List.length_append, lM l, lH l]; simp)]
  have lb : ∀ l, (USpec.decapsM spec (sk l) (c l) ++ USpec.skHpk spec (sk l)).length = 64 := fun l => by rw [List.length_append, lM l, lH l]
  refine stepFam (sha3_512x4_ok _ _ _ _ _ (fun l => by simp) (fun l => by rw [lb l])) (fun l => USpec.decapsKr spec (sk l) (c l)) (fun l => ?_) ?_
  · rw [List.drop_zero, List.take_of_length_le (by rw [lb l]), writeAt_full _ _ (by simp [lg])]
    rfl
  refine stepFam (indcpa_kem_enc_ok (fun l => by rw [lb l]; decide) (fun l => by rw [lK l]) (fun l => by rw [hsk l]; decide) (fun l => by simp; rfl))
    (fun l => USpec.reEncrypt spec (sk l) (c l)) (fun l => ?_) ?_
  · rw [List.take_append_of_le_length (by rw [lM l]), List.take_of_length_le (by rw [lM l]),
      List.take_of_length_le (by rw [List.length_drop, lK l])]
    rfl
  refine stepFam (famM_ok fun l => verify_ok _ _ _ _ _ (Nat.le_of_eq (by rw [hc l]; rfl)) (Nat.le_of_eq (by rw [lR l]; rfl)))
    (fun l => if c l = USpec.reEncrypt spec (sk l) (c l) then 0 else 1) (fun l => ?_) ?_
  · rw [List.drop_zero, List.drop_zero, List.take_of_length_le (show (c l).length ≤ PSet.saber.BYTES_CCA_DEC from Nat.le_of_eq (hc l)),
      List.take_of_length_le (show _ ≤ PSet.saber.BYTES_CCA_DEC from Nat.le_of_eq (lR l))]
  refine stepFam (sha3_256x4_ok _ _ _ _ _ (fun l => by rw [lK l]) (fun l => Nat.le_of_eq (by rw [hc l]; rfl)))
    (fun l => (USpec.decapsKr spec (sk l) (c l)).take 32 ++ Keccak.sha3_256 (c l)) (fun l => ?_) ?_
  · rw [List.drop_zero, List.take_of_length_le (show _ ≤ PSet.saber.BYTES_CCA_DEC from Nat.le_of_eq (hc l))]
    unfold writeAt
    rw [List.drop_of_length_le (by rw [lh, lK l]), List.append_nil]
  have lr : ∀ l, ((USpec.decapsKr spec (sk l) (c l)).take 32 ++ Keccak.sha3_256 (c l)).length = 64 := fun l => by
    rw [List.length_append, List.length_take, lh, lK l]; decide
  let r : Fam (List Byte) := fun l => if c l = USpec.reEncrypt spec (sk l) (c l) then (USpec.decapsKr spec (sk l) (c l)).take 32 ++ Keccak.sha3_256 (c l)
    else USpec.skZ spec (sk l) ++ Keccak.sha3_256 (c l)
  have lr' : ∀ l, (r l).length = 64 := fun l => by
    simp only [r]; split
    · exact lr l
    · rw [List.length_append, lZ l, lh]
  refine stepOk (a := r) (fourA_ok fun l => ?_) ?_
  · dsimp only
    simp only [r]
    split
    · rename_i h
      exact cmov_zero_ok _ _ _ _ _ (by rw [lr l]; decide) (by rw [hsk l]; decide)
    · have eZ : ((sk l).drop (PSet.saber.SECRETKEYBYTES - KEYBYTES)).take KEYBYTES = USpec.skZ spec (sk l) := rfl
      refine (cmov_one_ok _ _ _ _ _ (by rw [lr l]; decide) (by rw [hsk l]; decide)).trans ?_
      rw [eZ, writeAt_prefix, List.drop_append_of_le_length (by rw [lZ l, List.length_take, lK l]; decide),
        List.drop_of_length_le (by rw [lZ l, List.length_take, lK l]; decide), List.nil_append]
  refine stepFam (sha3_256x4_ok _ _ _ _ _ (fun l => by rw [hk l]) (fun l => by rw [lr' l])) (fun l => USpec.decaps spec (sk l) (c l)) (fun l => ?_) rfl
  rw [List.drop_zero, List.take_of_length_le (by rw [lr' l]), writeAt_full _ _ (by rw [lh, hk l])]
  simp only [r]
  unfold USpec.decaps
  split <;> rfl

end Saber.X4

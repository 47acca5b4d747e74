import Verif.Proof.InPlaceU
import Verif.Props.InPlaceKem
import Verif.Props.USaber
/-!
# C93 for the variants uSaber and Saber-90s
-/
namespace Saber.Props
open Spec

/-- C93: decapsulation of every build of `Variants/uSaber-90s/ref` may put the shared secret anywhere, also over the ciphertext or the secret key. -/
theorem C93_dec_variants (f : U.Cfg) (mem : List Byte) (kOff cOff skOff : Nat) (hk : kOff + 32 ≤ mem.length) (hc : cOff + f.BYTES_CCA_DEC ≤ mem.length)
    (hsk : skOff + f.SECRETKEYBYTES ≤ mem.length) :
    ∃ mem', U.InPlace.crypto_kem_dec f mem kOff cOff skOff = .ok (0, mem') ∧
      Replaced mem mem' kOff 32 (USpec.decaps (variant f) (slice mem skOff f.SECRETKEYBYTES) (slice mem cOff f.BYTES_CCA_DEC)) := by
  rw [variant_eq]
  refine ⟨_, U.InPlace.crypto_kem_dec_ok f mem kOff cOff skOff hk hc hsk _ _ rfl rfl, replaced_writeAt _ _ _ _ ?_ hk⟩
  unfold USpec.decaps USpec.kemKey
  split <;> exact U.length_H f _

/-- C93: encapsulation of the variants for a public key that the ciphertext does not overlap.  The shared secret may overlap the public key. -/
theorem C93_enc_variants {σ : Type} (f : U.Cfg) (rb : RandomBytes σ) (st st1 : σ) (m0 : List Byte) (h1 : Delivers rb 32 st m0 st1)
    (mem : List Byte) (cOff kOff pkOff : Nat) (hc : cOff + f.BYTES_CCA_DEC ≤ mem.length) (hk : kOff + 32 ≤ mem.length)
    (hpk : pkOff + f.PUBLICKEYBYTES ≤ mem.length) (hcp : Apart cOff f.BYTES_CCA_DEC pkOff f.PUBLICKEYBYTES)
    (hck : Apart cOff f.BYTES_CCA_DEC kOff 32) :
    ∃ mem', U.InPlace.crypto_kem_enc f rb mem cOff kOff pkOff st = .ok (0, mem', st1) ∧ mem'.length = mem.length ∧
      slice mem' cOff f.BYTES_CCA_DEC = USpec.encapsC (variant f) m0 (slice mem pkOff f.PUBLICKEYBYTES) ∧
      slice mem' kOff 32 = USpec.encapsK (variant f) m0 (slice mem pkOff f.PUBLICKEYBYTES) ∧
      ∀ o n, Apart cOff f.BYTES_CCA_DEC o n → Apart kOff 32 o n → slice mem' o n = slice mem o n := by
  have k1 := U.PK_eq f
  have k3 := U.CT_eq f
  have k4 : f.PUBLICKEYBYTES = f.INDCPA_PUBLICKEYBYTES := rfl
  unfold Apart at hcp hck
  have e : ∀ S, U.InPlace.seenPk f mem pkOff cOff S = slice mem pkOff f.PUBLICKEYBYTES := fun S => by
    unfold U.InPlace.seenPk slice
    have := U.InPlace.length_ctHead f ((mem.drop (pkOff + f.P.L * 320)).take 32) S
    rw [InPlace.slice_disj _ _ _ (by omega) _ _ (by omega), k4, k1, List.take_add, List.drop_drop]
  have h := U.InPlace.crypto_kem_enc_ok f rb st st1 m0 h1 mem cOff kOff pkOff hc hk hpk _ _ _ rfl rfl rfl
  rw [e] at h
  have lc : (USpec.encapsC f.spec m0 (slice mem pkOff f.PUBLICKEYBYTES)).length = f.BYTES_CCA_DEC := by rw [k3]; exact U.length_pkeEnc _ _ _ _
  have lk : (USpec.encapsK f.spec m0 (slice mem pkOff f.PUBLICKEYBYTES)).length = 32 := U.length_H f _
  replace h : U.InPlace.crypto_kem_enc f rb mem cOff kOff pkOff st = .ok (0, writeAt (writeAt mem cOff (USpec.encapsC f.spec m0 (slice mem pkOff f.PUBLICKEYBYTES))) kOff
    (USpec.encapsK f.spec m0 (slice mem pkOff f.PUBLICKEYBYTES)), st1) := h
  rw [variant_eq]
  generalize USpec.encapsC f.spec m0 (slice mem pkOff f.PUBLICKEYBYTES) = C at h lc ⊢
  generalize USpec.encapsK f.spec m0 (slice mem pkOff f.PUBLICKEYBYTES) = K at h lk ⊢
  have l1 : (writeAt mem cOff C).length = mem.length := length_writeAt _ _ _ (by omega)
  refine ⟨_, h, ?_, ?_, ?_, ?_⟩
  · exact (length_writeAt _ _ _ (by omega)).trans l1
  · refine (InPlace.slice_disj _ _ _ (by omega) _ _ (by omega)).trans ?_
    rw [← lc]; exact writeAt_read _ _ _ (by omega)
  · rw [← lk]; exact writeAt_read _ _ _ (by omega)
  · intro o n ho hn
    unfold Apart at ho hn
    refine (InPlace.slice_disj _ _ _ (by omega) _ _ (by omega)).trans ?_
    exact InPlace.slice_disj _ _ _ (by omega) _ _ (by omega)

/-- C93: encapsulation of the variants for any overlap of the three buffers, as in `C93_enc_any`. -/
theorem C93_enc_any_variants {σ : Type} (f : U.Cfg) (rb : RandomBytes σ) (st st1 : σ) (m0 : List Byte) (h1 : Delivers rb 32 st m0 st1)
    (mem : List Byte) (cOff kOff pkOff : Nat) (hc : cOff + f.BYTES_CCA_DEC ≤ mem.length) (hk : kOff + 32 ≤ mem.length)
    (hpk : pkOff + f.PUBLICKEYBYTES ≤ mem.length) (pk kr : List Byte) (epk : pk = slice mem pkOff f.PUBLICKEYBYTES)
    (ekr : kr = (variant f).sym.G ((variant f).sym.H m0 ++ (variant f).sym.H pk)) :
    ∃ memH mem1 mem' c, U.InPlace.crypto_kem_enc f rb mem cOff kOff pkOff st = .ok (0, mem', st1) ∧
      c = USpec.pkeEnc (variant f) ((variant f).sym.H m0) (kr.drop 32) (slice memH pkOff (f.P.L * 320) ++ pk.drop (f.P.L * 320)) ∧
      Replaced mem memH cOff (f.P.L * 320) (c.take (f.P.L * 320)) ∧ Replaced mem mem1 cOff f.BYTES_CCA_DEC c ∧
      Replaced mem1 mem' kOff 32 ((variant f).sym.H (kr.take 32 ++ (variant f).sym.H c)) := by
  have k1 := U.PK_eq f
  have k3 := U.CT_eq f
  have k4 : f.PUBLICKEYBYTES = f.INDCPA_PUBLICKEYBYTES := rfl
  rw [variant_eq] at ekr ⊢
  have h := U.InPlace.crypto_kem_enc_ok f rb st st1 m0 h1 mem cOff kOff pkOff hc hk hpk pk kr _ epk ekr rfl
  have es : (mem.drop (pkOff + f.P.L * 320)).take 32 = pk.drop (f.P.L * 320) := by
    rw [epk, slice, k4, k1, List.drop_take, List.drop_drop]; congr 1; omega
  have lp : (pk.drop (f.P.L * 320)).length = 32 := by rw [← es, List.length_take, List.length_drop]; omega
  have lH := U.InPlace.length_ctHead f (pk.drop (f.P.L * 320)) (kr.drop 32)
  have e : U.InPlace.seenPk f mem pkOff cOff (kr.drop 32) =
      slice (writeAt mem cOff (U.InPlace.ctHead f (pk.drop (f.P.L * 320)) (kr.drop 32))) pkOff (f.P.L * 320) ++ pk.drop (f.P.L * 320) := by
    unfold U.InPlace.seenPk slice; rw [es]
  rw [e] at h
  have lV : (slice (writeAt mem cOff (U.InPlace.ctHead f (pk.drop (f.P.L * 320)) (kr.drop 32))) pkOff (f.P.L * 320)).length = f.P.L * 320 := by
    rw [slice, List.length_take, List.length_drop, length_writeAt _ _ _ (by omega)]; omega
  generalize hv : slice (writeAt mem cOff (U.InPlace.ctHead f (pk.drop (f.P.L * 320)) (kr.drop 32))) pkOff (f.P.L * 320) = v at h lV
  generalize hcd : USpec.pkeEnc f.spec (f.sym.H m0) (kr.drop 32) (v ++ pk.drop (f.P.L * 320)) = c at h
  have lc : c.length = f.BYTES_CCA_DEC := by rw [← hcd, k3]; exact U.length_pkeEnc _ _ _ _
  have l1 : (writeAt mem cOff c).length = mem.length := length_writeAt _ _ _ (by omega)
  have hd : c.take (f.P.L * 320) = U.InPlace.ctHead f (pk.drop (f.P.L * 320)) (kr.drop 32) := by
    have eP : (v ++ pk.drop (f.P.L * 320)).drop (f.P.L * 320) = pk.drop (f.P.L * 320) := by
      rw [List.drop_append_of_le_length (by omega), List.drop_of_length_le (by omega), List.nil_append]
    rw [← hcd]
    refine Eq.trans ?_ (congrArg (fun x => U.InPlace.ctHead f x (kr.drop 32)) eP)
    exact List.take_left' (U.InPlace.length_ctHead f _ _)
  refine ⟨writeAt mem cOff (c.take (f.P.L * 320)), _, _, c, h, ?_, replaced_writeAt _ _ _ _ (by rw [hd]; exact lH) (by omega),
    replaced_writeAt _ _ _ _ lc hc, replaced_writeAt _ _ _ _ (U.length_H f _) (by omega)⟩
  rw [hd, hv]; exact hcd.symm

/-- C93, variants: key generation into separate places. -/
theorem C93_keypair_variants {σ : Type} (f : U.Cfg) (rb : RandomBytes σ) (st st1 st2 st3 : σ) (r1 r2 z : List Byte)
    (h1 : Delivers rb 32 st r1 st1) (h2 : Delivers rb 32 st1 r2 st2) (h3 : Delivers rb 32 st2 z st3) (mem : List Byte) (pkOff skOff : Nat)
    (hpk : pkOff + f.PUBLICKEYBYTES ≤ mem.length) (hsk : skOff + f.SECRETKEYBYTES ≤ mem.length)
    (hd : Apart pkOff f.PUBLICKEYBYTES skOff f.SECRETKEYBYTES) :
    ∃ mem1 mem', U.InPlace.crypto_kem_keypair f rb mem pkOff skOff st = .ok (0, mem', st3) ∧
      Replaced mem mem1 pkOff f.PUBLICKEYBYTES (USpec.kemPk (variant f) r1 r2) ∧ Replaced mem1 mem' skOff f.SECRETKEYBYTES (USpec.kemSk (variant f) r1 r2 z) ∧
      slice mem' pkOff f.PUBLICKEYBYTES = USpec.kemPk (variant f) r1 r2 := by
  have k4 : f.PUBLICKEYBYTES = f.INDCPA_PUBLICKEYBYTES := rfl
  unfold Apart at hd
  rw [variant_eq]
  have l1 : (USpec.kemPk f.spec r1 r2).length = f.PUBLICKEYBYTES := U.length_kemPk f _ _ h1.1
  have l2 : (USpec.kemSk f.spec r1 r2 z).length = f.SECRETKEYBYTES := by
    have e : USpec.kemSk f.spec r1 r2 z = USpec.pkeKeyGenSk f.spec r2 ++ USpec.kemPk f.spec r1 r2 ++ f.sym.H (USpec.kemPk f.spec r1 r2) ++ z := rfl
    rw [e, List.length_append, List.length_append, List.length_append, U.length_pkeKeyGenSk, U.length_kemPk f _ _ h1.1, U.length_H f, h3.1]; exact (U.KSK_eq f).symm
  have lW : (writeAt mem pkOff (USpec.kemPk f.spec r1 r2)).length = mem.length := length_writeAt _ _ _ (by omega)
  refine ⟨_, _, U.InPlace.crypto_kem_keypair_ok f rb st st1 st2 st3 r1 r2 z h1 h2 h3 mem pkOff skOff hpk hsk (by omega),
    replaced_writeAt _ _ _ _ l1 hpk, replaced_writeAt _ _ _ _ l2 (by omega), ?_⟩
  refine (InPlace.slice_disj _ _ _ (by omega) _ _ (by omega)).trans ?_
  rw [← l1]; exact writeAt_read _ _ _ (by omega)

/-- C93, variants: the public key may be put where the secret key contains it: the secret key is right, and the public key is the one inside of it. -/
theorem C93_keypair_shared_variants {σ : Type} (f : U.Cfg) (rb : RandomBytes σ) (st st1 st2 st3 : σ) (r1 r2 z : List Byte)
    (h1 : Delivers rb 32 st r1 st1) (h2 : Delivers rb 32 st1 r2 st2) (h3 : Delivers rb 32 st2 z st3) (mem : List Byte) (skOff : Nat)
    (hsk : skOff + f.SECRETKEYBYTES ≤ mem.length) :
    ∃ mem', U.InPlace.crypto_kem_keypair f rb mem (skOff + f.INDCPA_SECRETKEYBYTES) skOff st = .ok (0, mem', st3) ∧
      Replaced mem mem' skOff f.SECRETKEYBYTES (USpec.kemSk (variant f) r1 r2 z) ∧
      slice mem' (skOff + f.INDCPA_SECRETKEYBYTES) f.PUBLICKEYBYTES = USpec.kemPk (variant f) r1 r2 := by
  have k1 := U.PK_eq f
  have k2 := U.SK_eq f
  have k3 := U.KSK_eq f
  have k4 : f.PUBLICKEYBYTES = f.INDCPA_PUBLICKEYBYTES := rfl
  rw [variant_eq]
  have e : USpec.kemSk f.spec r1 r2 z = USpec.pkeKeyGenSk f.spec r2 ++ USpec.kemPk f.spec r1 r2 ++ f.sym.H (USpec.kemPk f.spec r1 r2) ++ z := rfl
  have l0 : (USpec.pkeKeyGenSk f.spec r2).length = f.P.L * (32 * f.EQ) := U.length_pkeKeyGenSk _ _
  have l1 : (USpec.kemPk f.spec r1 r2).length = f.P.L * 320 + 32 := U.length_kemPk f _ _ h1.1
  have lh := U.length_H f (USpec.kemPk f.spec r1 r2)
  have l2 : (USpec.kemSk f.spec r1 r2 z).length = f.SECRETKEYBYTES := by
    rw [e, List.length_append, List.length_append, List.length_append, l0, l1, lh, h3.1]; exact (U.KSK_eq f).symm
  have lW : (writeAt mem (skOff + f.INDCPA_SECRETKEYBYTES) (USpec.kemPk f.spec r1 r2)).length = mem.length := length_writeAt _ _ _ (by omega)
  have key : writeAt (writeAt mem (skOff + f.INDCPA_SECRETKEYBYTES) (USpec.kemPk f.spec r1 r2)) skOff (USpec.kemSk f.spec r1 r2 z) = writeAt mem skOff (USpec.kemSk f.spec r1 r2 z) := by
    apply List.ext_getElem?
    intro i
    rw [InPlace.getElem?_writeAt _ _ _ (by omega), InPlace.getElem?_writeAt _ _ _ (by omega), InPlace.getElem?_writeAt _ _ _ (by omega)]
    split_ifs <;> first | rfl | omega
  refine ⟨_, U.InPlace.crypto_kem_keypair_ok f rb st st1 st2 st3 r1 r2 z h1 h2 h3 mem _ skOff (by omega) hsk (by omega), ?_, ?_⟩
  · rw [key]; exact replaced_writeAt _ _ _ _ l2 hsk
  · have hr := writeAt_read mem (USpec.kemSk f.spec r1 r2 z) skOff (by omega)
    have : slice (writeAt mem skOff (USpec.kemSk f.spec r1 r2 z)) (skOff + f.INDCPA_SECRETKEYBYTES) f.PUBLICKEYBYTES =
        ((USpec.kemSk f.spec r1 r2 z).drop f.INDCPA_SECRETKEYBYTES).take f.PUBLICKEYBYTES := by
      conv_rhs => rw [← hr]
      rw [slice, List.drop_take, List.drop_drop, List.take_take, min_eq_left (by omega)]
    rw [key, this, e, List.append_assoc, List.append_assoc, List.drop_append_of_le_length (by omega), List.drop_of_length_le (by omega), List.nil_append]
    exact List.take_left' (by omega)

/-- C93, variants: key generation must not put the public key where the secret key has its secret vector `s` (for instance, at the start of the secret key).  If it does, the
return code is 0 and the public key is right, but it replaces a part of the secret vector: the secret bytes in that place are lost. -/
theorem C93_keypair_over_secret_vector_variants {σ : Type} (f : U.Cfg) (rb : RandomBytes σ) (st st1 st2 st3 : σ) (r1 r2 z : List Byte)
    (h1 : Delivers rb 32 st r1 st1) (h2 : Delivers rb 32 st1 r2 st2) (h3 : Delivers rb 32 st2 z st3) (mem : List Byte) (d skOff : Nat)
    (hsk : skOff + f.SECRETKEYBYTES ≤ mem.length) (hd : d + f.PUBLICKEYBYTES ≤ f.INDCPA_SECRETKEYBYTES) (pk s : List Byte)
    (epk : pk = USpec.kemPk (variant f) r1 r2) (es : s = USpec.pkeKeyGenSk (variant f) r2) :
    ∃ mem', U.InPlace.crypto_kem_keypair f rb mem (skOff + d) skOff st = .ok (0, mem', st3) ∧ slice mem' (skOff + d) f.PUBLICKEYBYTES = pk ∧
      Replaced mem mem' skOff f.SECRETKEYBYTES (s.take d ++ pk ++ s.drop (d + f.PUBLICKEYBYTES) ++ pk ++ (variant f).sym.H pk ++ z) := by
  have k1 := U.PK_eq f
  have k2 := U.SK_eq f
  have k3 := U.KSK_eq f
  have k4 : f.PUBLICKEYBYTES = f.INDCPA_PUBLICKEYBYTES := rfl
  rw [variant_eq] at epk es ⊢
  have l0 : s.length = f.P.L * (32 * f.EQ) := by rw [es]; exact U.length_pkeKeyGenSk _ _
  have l1 : pk.length = f.P.L * 320 + 32 := by rw [epk]; exact U.length_kemPk f _ _ h1.1
  have lh := U.length_H f pk
  have h := U.InPlace.crypto_kem_keypair_inside f rb st st1 st2 st3 r1 r2 z h1 h2 h3 mem d skOff hsk (by omega)
  rw [← epk, ← es] at h
  have lT : (writeAt s d pk).length = f.P.L * (32 * f.EQ) := by rw [length_writeAt _ _ _ (by omega), l0]
  have eT : writeAt s d pk = s.take d ++ pk ++ s.drop (d + f.PUBLICKEYBYTES) := by unfold writeAt; rw [l1, k4, k1]
  have lA : (writeAt s d pk ++ pk ++ f.sym.H pk ++ z).length = f.SECRETKEYBYTES := by
    rw [List.length_append, List.length_append, List.length_append, lT, l1, lh, h3.1]; omega
  refine ⟨_, h, ?_, ?_⟩
  · have hr := writeAt_read mem (writeAt s d pk ++ pk ++ f.sym.H pk ++ z) skOff (by omega)
    have : slice (writeAt mem skOff (writeAt s d pk ++ pk ++ f.sym.H pk ++ z)) (skOff + d) f.PUBLICKEYBYTES =
        ((writeAt s d pk ++ pk ++ f.sym.H pk ++ z).drop d).take f.PUBLICKEYBYTES := by
      conv_rhs => rw [← hr]
      rw [slice, List.drop_take, List.drop_drop, List.take_take, min_eq_left (by omega)]
    rw [this, List.append_assoc, List.append_assoc, List.drop_append_of_le_length (by omega), List.take_append_of_le_length (by rw [List.length_drop]; omega), k4, k1, ← l1]
    exact writeAt_read _ _ _ (by omega)
  · rw [← eT]; exact replaced_writeAt _ _ _ _ lA hsk

/-- C93, variants: key generation for any overlap of the two keys, as in `C93_keypair_any`. -/
theorem C93_keypair_any_variants {σ : Type} (f : U.Cfg) (rb : RandomBytes σ) (st st1 st2 st3 : σ) (r1 r2 z : List Byte)
    (h1 : Delivers rb 32 st r1 st1) (h2 : Delivers rb 32 st1 r2 st2) (h3 : Delivers rb 32 st2 z st3) (mem : List Byte) (pkOff skOff : Nat)
    (hpk : pkOff + f.PUBLICKEYBYTES ≤ mem.length) (hsk : skOff + f.SECRETKEYBYTES ≤ mem.length) (j : Nat)
    (hj : j = skOff + f.INDCPA_SECRETKEYBYTES - pkOff) :
    ∃ mem1 mem2 mem3 mem4 mem', U.InPlace.crypto_kem_keypair f rb mem pkOff skOff st = .ok (0, mem', st3) ∧
      Replaced mem mem1 skOff f.INDCPA_SECRETKEYBYTES (USpec.pkeKeyGenSk (variant f) r2) ∧
      Replaced mem1 mem2 pkOff f.PUBLICKEYBYTES (USpec.kemPk (variant f) r1 r2) ∧
      Replaced mem2 mem3 (skOff + f.INDCPA_SECRETKEYBYTES) f.PUBLICKEYBYTES
        ((List.range f.PUBLICKEYBYTES).map fun i => (USpec.kemPk (variant f) r1 r2).getD (i % j) 0) ∧
      Replaced mem3 mem4 (skOff + (f.SECRETKEYBYTES - 64)) 32 ((variant f).sym.H (slice mem3 pkOff f.PUBLICKEYBYTES)) ∧
      Replaced mem4 mem' (skOff + (f.SECRETKEYBYTES - 32)) 32 z := by
  have k1 := U.PK_eq f
  have k2 := U.SK_eq f
  have k3 := U.KSK_eq f
  have k4 : f.PUBLICKEYBYTES = f.INDCPA_PUBLICKEYBYTES := rfl
  rw [variant_eq]
  subst hj
  simp only [k4] at hpk ⊢
  have l1 : (USpec.kemPk f.spec r1 r2).length = f.INDCPA_PUBLICKEYBYTES := by rw [U.length_kemPk f _ _ h1.1, k1]
  have l2 : (USpec.pkeKeyGenSk f.spec r2).length = f.INDCPA_SECRETKEYBYTES := by rw [k2]; exact U.length_pkeKeyGenSk _ _
  have h := U.InPlace.crypto_kem_keypair_any f rb st st1 st2 st3 r1 r2 z h1 h2 h3 mem pkOff skOff hpk hsk _ _ rfl rfl
  have lD : ((List.range f.INDCPA_PUBLICKEYBYTES).map fun i => (USpec.kemPk f.spec r1 r2).getD (i % (skOff + f.INDCPA_SECRETKEYBYTES - pkOff)) 0).length =
    f.INDCPA_PUBLICKEYBYTES := by rw [List.length_map, List.length_range]
  generalize ((List.range f.INDCPA_PUBLICKEYBYTES).map fun i => (USpec.kemPk f.spec r1 r2).getD (i % (skOff + f.INDCPA_SECRETKEYBYTES - pkOff)) 0) = D at h lD ⊢
  have lA : (writeAt mem skOff (USpec.pkeKeyGenSk f.spec r2)).length = mem.length := length_writeAt _ _ _ (by omega)
  have lB : (writeAt (writeAt mem skOff (USpec.pkeKeyGenSk f.spec r2)) pkOff (USpec.kemPk f.spec r1 r2)).length = mem.length := by rw [length_writeAt _ _ _ (by omega), lA]
  have lC : (writeAt (writeAt (writeAt mem skOff (USpec.pkeKeyGenSk f.spec r2)) pkOff (USpec.kemPk f.spec r1 r2)) (skOff + f.INDCPA_SECRETKEYBYTES) D).length = mem.length := by
    rw [length_writeAt _ _ _ (by omega), lB]
  refine ⟨_, _, _, _, _, h, replaced_writeAt _ _ _ _ l2 (by omega), replaced_writeAt _ _ _ _ l1 (by omega), replaced_writeAt _ _ _ _ lD (by omega),
    replaced_writeAt _ _ _ _ (U.length_H f _) ?_, replaced_writeAt _ _ _ _ h3.1 ?_⟩
  · refine Nat.le_trans ?_ (Nat.le_of_eq lC.symm); omega
  · refine Nat.le_trans ?_ (Nat.le_of_eq ((length_writeAt _ _ _ ?_).trans lC).symm)
    · omega
    · rw [U.length_H f]
      refine Nat.le_trans ?_ (Nat.le_of_eq lC.symm); omega

/-- The hypothesis on the place is met by the start of the secret key for every build. -/
example (f : U.Cfg) : 0 + f.PUBLICKEYBYTES ≤ f.INDCPA_SECRETKEYBYTES := by rcases f with ⟨P, a, b⟩; cases P <;> cases a <;> cases b <;> decide

/-- The hypotheses of the theorems about key generation are met, with the public key inside of the secret key. -/
example (f : U.Cfg) : ∃ mem' st', U.InPlace.crypto_kem_keypair f tapeRng (List.replicate f.SECRETKEYBYTES 0) (0 + f.INDCPA_SECRETKEYBYTES) 0 (List.replicate 96 5, []) =
    .ok (0, mem', st') ∧ mem'.length = f.SECRETKEYBYTES := by
  have l : (List.replicate f.SECRETKEYBYTES (0 : Byte)).length = f.SECRETKEYBYTES := List.length_replicate
  obtain ⟨m, h, hr, _⟩ := C93_keypair_shared_variants f tapeRng _ _ _ _ _ _ _ (tapeRng_delivers 32 (List.replicate 96 5) [] (by simp))
    (tapeRng_delivers 32 _ _ (by simp)) (tapeRng_delivers 32 _ _ (by simp)) (List.replicate f.SECRETKEYBYTES 0) 0 (by rw [l]; omega)
  exact ⟨m, _, h, hr.1.trans l⟩

/-- The hypotheses are met for uSaber with the 90s functions, with the shared secret over the ciphertext. -/
example : ∃ mem', U.InPlace.crypto_kem_dec ⟨.saber, true, true⟩ (List.replicate 4096 0) 2208 2208 0 = .ok (0, mem') ∧ mem'.length = 4096 := by
  have b1 : U.Cfg.BYTES_CCA_DEC ⟨.saber, true, true⟩ = 1088 := rfl
  have b2 : U.Cfg.SECRETKEYBYTES ⟨.saber, true, true⟩ ≤ 2400 := by decide
  have l : (List.replicate 4096 (0 : Byte)).length = 4096 := List.length_replicate
  obtain ⟨m, h, hr⟩ := C93_dec_variants ⟨.saber, true, true⟩ (List.replicate 4096 0) 2208 2208 0 (by omega) (by omega) (by omega)
  exact ⟨m, h, hr.1.trans l⟩

/-- The hypotheses of the theorems about encapsulation are met, with the shared secret over the public key. -/
example : ∃ mem' st', U.InPlace.crypto_kem_enc ⟨.saber, true, true⟩ tapeRng (List.replicate 4096 0) 0 2000 2000 (List.replicate 32 5, []) = .ok (0, mem', st') ∧
    mem'.length = 4096 := by
  have b1 : U.Cfg.BYTES_CCA_DEC ⟨.saber, true, true⟩ = 1088 := rfl
  have b2 : U.Cfg.PUBLICKEYBYTES ⟨.saber, true, true⟩ = 992 := rfl
  have l : (List.replicate 4096 (0 : Byte)).length = 4096 := List.length_replicate
  obtain ⟨m, h, hr, _⟩ := C93_enc_variants ⟨.saber, true, true⟩ tapeRng _ _ _ (tapeRng_delivers 32 (List.replicate 32 5) [] (by simp)) (List.replicate 4096 0) 0 2000 2000
    (by omega) (by omega) (by omega) (by unfold Apart; omega) (by unfold Apart; omega)
  exact ⟨m, _, h, hr.trans l⟩

end Saber.Props

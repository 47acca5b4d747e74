import Verif.Proof.InPlaceKem
import Verif.Props.InPlace
import Verif.Props.Kem
/-!
# C93: where the buffers of a caller may overlap

In `Verif.Model.InPlaceKem` all arguments of a function of the KEM point into one object.
-/
namespace Saber.Props
open Spec

/-- The `n` bytes from offset `off` on. -/
def slice (mem : List Byte) (off n : Nat) : List Byte := (mem.drop off).take n

/-- The places `a .. a + m` and `b .. b + n` have no byte in common. -/
def Apart (a m b n : Nat) : Prop := a + m ≤ b ∨ b + n ≤ a

/-- C93: decapsulation may put the shared secret anywhere, also over the ciphertext or the secret key: the result is that for the original inputs, and no other byte
changes. -/
theorem C93_dec (P : PSet) (mem : List Byte) (kOff cOff skOff : Nat) (hk : kOff + 32 ≤ mem.length) (hc : cOff + P.BYTES_CCA_DEC ≤ mem.length)
    (hsk : skOff + P.SECRETKEYBYTES ≤ mem.length) :
    ∃ mem', InPlace.crypto_kem_dec P mem kOff cOff skOff = .ok (0, mem') ∧
      Replaced mem mem' kOff 32 (decaps (params P) (slice mem skOff P.SECRETKEYBYTES) (slice mem cOff P.BYTES_CCA_DEC)) := by
  rw [params_eq]
  refine ⟨_, InPlace.crypto_kem_dec_ok P mem kOff cOff skOff hk hc hsk _ _ rfl rfl, replaced_writeAt _ _ _ _ ?_ hk⟩
  unfold decaps kemKey
  split <;> exact length_sha3_256 _

theorem length_encapsC (P : PSet) (m pk : List Byte) : (encapsC P.spec m pk).length = P.BYTES_CCA_DEC := by
  rw [CT_eq]; exact length_pkeEnc _ _ _ _

/-- C93: encapsulation for a public key that the ciphertext does not overlap.  The shared secret may overlap the public key. -/
theorem C93_enc {σ : Type} (P : PSet) (rb : RandomBytes σ) (st st1 : σ) (m0 : List Byte) (h1 : Delivers rb 32 st m0 st1)
    (mem : List Byte) (cOff kOff pkOff : Nat) (hc : cOff + P.BYTES_CCA_DEC ≤ mem.length) (hk : kOff + 32 ≤ mem.length)
    (hpk : pkOff + P.PUBLICKEYBYTES ≤ mem.length) (hcp : Apart cOff P.BYTES_CCA_DEC pkOff P.PUBLICKEYBYTES)
    (hck : Apart cOff P.BYTES_CCA_DEC kOff 32) :
    ∃ mem', InPlace.crypto_kem_enc P rb mem cOff kOff pkOff st = .ok (0, mem', st1) ∧ mem'.length = mem.length ∧
      slice mem' cOff P.BYTES_CCA_DEC = encapsC (params P) m0 (slice mem pkOff P.PUBLICKEYBYTES) ∧
      slice mem' kOff 32 = encapsK (params P) m0 (slice mem pkOff P.PUBLICKEYBYTES) ∧
      ∀ o n, Apart cOff P.BYTES_CCA_DEC o n → Apart kOff 32 o n → slice mem' o n = slice mem o n := by
  have k1 := PK_eq P
  have k3 := CT_eq P
  have k4 : P.PUBLICKEYBYTES = P.INDCPA_PUBLICKEYBYTES := rfl
  unfold Apart at hcp hck
  have e : ∀ S, InPlace.seenPk P mem pkOff cOff S = slice mem pkOff P.PUBLICKEYBYTES := fun S => by
    unfold InPlace.seenPk slice
    have := InPlace.length_ctHead P ((mem.drop (pkOff + P.L * 320)).take 32) S
    rw [InPlace.slice_disj _ _ _ (by omega) _ _ (by omega), k4, k1, List.take_add, List.drop_drop]
  have h := InPlace.crypto_kem_enc_ok P rb st st1 m0 h1 mem cOff kOff pkOff hc hk hpk _ _ _ rfl rfl rfl
  rw [e] at h
  have lc := length_encapsC P m0 (slice mem pkOff P.PUBLICKEYBYTES)
  have lk : (encapsK P.spec m0 (slice mem pkOff P.PUBLICKEYBYTES)).length = 32 := length_sha3_256 _
  replace h : InPlace.crypto_kem_enc P rb mem cOff kOff pkOff st = .ok (0, writeAt (writeAt mem cOff (encapsC P.spec m0 (slice mem pkOff P.PUBLICKEYBYTES))) kOff
    (encapsK P.spec m0 (slice mem pkOff P.PUBLICKEYBYTES)), st1) := h
  rw [params_eq]
  generalize encapsC P.spec m0 (slice mem pkOff P.PUBLICKEYBYTES) = C at h lc ⊢
  generalize encapsK P.spec m0 (slice mem pkOff P.PUBLICKEYBYTES) = K at h lk ⊢
  have l1 : (writeAt mem cOff C).length = mem.length := length_writeAt _ _ _ (by omega)
  refine ⟨_, h, ?_, ?_, ?_, ?_⟩
  · exact (length_writeAt _ _ _ (by omega)).trans l1
  · refine (InPlace.slice_disj _ _ _ (by omega) _ _ (by omega)).trans ?_
    rw [← lc]; exact writeAt_read _ _ _ (by omega)
  · rw [← lk]; exact writeAt_read _ _ _ (by omega)
  · intro o n ho hn
    unfold Apart at ho hn
    refine (InPlace.slice_disj _ _ _ (by omega) _ _ (by omega)).trans ?_
    exact InPlace.slice_disj _ _ _ (by omega) _ _ (by omega)

/-- C93: encapsulation must not put the ciphertext in the place of the public key.  If it does, the return code is 0, but the ciphertext is an encryption for another
public key: its vector is the first part of the ciphertext itself.  (The shared secret is derived with the right public key.) -/
theorem C93_enc_over_public_key {σ : Type} (P : PSet) (rb : RandomBytes σ) (st st1 : σ) (m0 : List Byte) (h1 : Delivers rb 32 st m0 st1)
    (mem : List Byte) (kOff pkOff : Nat) (hc : pkOff + P.BYTES_CCA_DEC ≤ mem.length) (hk : kOff + 32 ≤ mem.length)
    (hck : Apart pkOff P.BYTES_CCA_DEC kOff 32) (pk kr : List Byte) (epk : pk = slice mem pkOff P.PUBLICKEYBYTES)
    (ekr : kr = Keccak.sha3_512 (Keccak.sha3_256 m0 ++ Keccak.sha3_256 pk)) :
    ∃ mem' c, InPlace.crypto_kem_enc P rb mem pkOff kOff pkOff st = .ok (0, mem', st1) ∧ slice mem' pkOff P.BYTES_CCA_DEC = c ∧
      c = pkeEnc (params P) (Keccak.sha3_256 m0) (kr.drop 32) (c.take ((params P).l * 320) ++ pk.drop ((params P).l * 320)) ∧
      slice mem' kOff 32 = kemKey (kr.take 32) c := by
  have k1 := PK_eq P
  have k3 := CT_eq P
  have k4 : P.PUBLICKEYBYTES = P.INDCPA_PUBLICKEYBYTES := rfl
  have hET : 1 ≤ P.ET := by cases P <;> decide
  unfold Apart at hck
  rw [params_eq]
  have hl : P.spec.l = P.L := rfl
  rw [hl]
  have h := InPlace.crypto_kem_enc_ok P rb st st1 m0 h1 mem pkOff kOff pkOff hc hk (by omega) pk kr _ epk ekr rfl
  have lH := InPlace.length_ctHead P ((mem.drop (pkOff + P.L * 320)).take 32) (kr.drop 32)
  have es : (mem.drop (pkOff + P.L * 320)).take 32 = pk.drop (P.L * 320) := by
    rw [epk, slice, k4, k1, List.drop_take, List.drop_drop]; congr 1; omega
  have e : InPlace.seenPk P mem pkOff pkOff (kr.drop 32) = InPlace.ctHead P (pk.drop (P.L * 320)) (kr.drop 32) ++ pk.drop (P.L * 320) := by
    unfold InPlace.seenPk
    rw [← es]
    congr 1
    have := writeAt_read mem (InPlace.ctHead P ((mem.drop (pkOff + P.L * 320)).take 32) (kr.drop 32)) pkOff (by omega)
    rwa [lH] at this
  rw [e] at h
  rw [es] at lH
  generalize hcd : pkeEnc P.spec (Keccak.sha3_256 m0) (kr.drop 32) (InPlace.ctHead P (pk.drop (P.L * 320)) (kr.drop 32) ++ pk.drop (P.L * 320)) = c at h
  have lc : c.length = P.BYTES_CCA_DEC := by rw [← hcd, k3]; exact length_pkeEnc _ _ _ _
  have l1 : (writeAt mem pkOff c).length = mem.length := length_writeAt _ _ _ (by omega)
  have lk : (kemKey (kr.take 32) c).length = 32 := length_sha3_256 _
  have hd : c.take (P.L * 320) = InPlace.ctHead P (pk.drop (P.L * 320)) (kr.drop 32) := by
    have eP : (InPlace.ctHead P (pk.drop (P.L * 320)) (kr.drop 32) ++ pk.drop (P.L * 320)).drop (P.L * 320) = pk.drop (P.L * 320) := by
      rw [List.drop_append_of_le_length (by omega), List.drop_of_length_le (by omega), List.nil_append]
    rw [← hcd]
    refine Eq.trans ?_ (congrArg (fun x => InPlace.ctHead P x (kr.drop 32)) eP)
    exact List.take_left' (InPlace.length_ctHead P _ _)
  refine ⟨_, c, h, ?_, ?_, ?_⟩
  · refine (InPlace.slice_disj _ _ (kemKey (kr.take 32) c) (by omega) _ _ (by omega)).trans ?_
    rw [← lc]; exact writeAt_read _ _ _ (by omega)
  · rw [hd]; exact hcd.symm
  · have := writeAt_read (writeAt mem pkOff c) (kemKey (kr.take 32) c) kOff (by omega)
    rwa [lk] at this

/-- C93: encapsulation for any overlap of the three buffers.  `pk` is the original public key.  The ciphertext `c` is an encryption with the right seed and the
vector that is found at the public key after the first part of `c` was written (`memH`).  Then the shared secret is written, possibly over `c`. -/
theorem C93_enc_any {σ : Type} (P : PSet) (rb : RandomBytes σ) (st st1 : σ) (m0 : List Byte) (h1 : Delivers rb 32 st m0 st1)
    (mem : List Byte) (cOff kOff pkOff : Nat) (hc : cOff + P.BYTES_CCA_DEC ≤ mem.length) (hk : kOff + 32 ≤ mem.length)
    (hpk : pkOff + P.PUBLICKEYBYTES ≤ mem.length) (pk kr : List Byte) (epk : pk = slice mem pkOff P.PUBLICKEYBYTES)
    (ekr : kr = Keccak.sha3_512 (Keccak.sha3_256 m0 ++ Keccak.sha3_256 pk)) :
    ∃ memH mem1 mem' c, InPlace.crypto_kem_enc P rb mem cOff kOff pkOff st = .ok (0, mem', st1) ∧
      c = pkeEnc (params P) (Keccak.sha3_256 m0) (kr.drop 32) (slice memH pkOff ((params P).l * 320) ++ pk.drop ((params P).l * 320)) ∧
      Replaced mem memH cOff ((params P).l * 320) (c.take ((params P).l * 320)) ∧ Replaced mem mem1 cOff P.BYTES_CCA_DEC c ∧
      Replaced mem1 mem' kOff 32 (kemKey (kr.take 32) c) := by
  have k1 := PK_eq P
  have k3 := CT_eq P
  have k4 : P.PUBLICKEYBYTES = P.INDCPA_PUBLICKEYBYTES := rfl
  rw [params_eq]
  have hl : P.spec.l = P.L := rfl
  rw [hl]
  have h := InPlace.crypto_kem_enc_ok P rb st st1 m0 h1 mem cOff kOff pkOff hc hk hpk pk kr _ epk ekr rfl
  have es : (mem.drop (pkOff + P.L * 320)).take 32 = pk.drop (P.L * 320) := by
    rw [epk, slice, k4, k1, List.drop_take, List.drop_drop]; congr 1; omega
  have lp : (pk.drop (P.L * 320)).length = 32 := by rw [← es, List.length_take, List.length_drop]; omega
  have lH := InPlace.length_ctHead P (pk.drop (P.L * 320)) (kr.drop 32)
  have e : InPlace.seenPk P mem pkOff cOff (kr.drop 32) =
      slice (writeAt mem cOff (InPlace.ctHead P (pk.drop (P.L * 320)) (kr.drop 32))) pkOff (P.L * 320) ++ pk.drop (P.L * 320) := by
    unfold InPlace.seenPk slice; rw [es]
  rw [e] at h
  have lV : (slice (writeAt mem cOff (InPlace.ctHead P (pk.drop (P.L * 320)) (kr.drop 32))) pkOff (P.L * 320)).length = P.L * 320 := by
    rw [slice, List.length_take, List.length_drop, length_writeAt _ _ _ (by omega)]; omega
  generalize hv : slice (writeAt mem cOff (InPlace.ctHead P (pk.drop (P.L * 320)) (kr.drop 32))) pkOff (P.L * 320) = v at h lV
  generalize hcd : pkeEnc P.spec (Keccak.sha3_256 m0) (kr.drop 32) (v ++ pk.drop (P.L * 320)) = c at h
  have lc : c.length = P.BYTES_CCA_DEC := by rw [← hcd, k3]; exact length_pkeEnc _ _ _ _
  have l1 : (writeAt mem cOff c).length = mem.length := length_writeAt _ _ _ (by omega)
  have hd : c.take (P.L * 320) = InPlace.ctHead P (pk.drop (P.L * 320)) (kr.drop 32) := by
    have eP : (v ++ pk.drop (P.L * 320)).drop (P.L * 320) = pk.drop (P.L * 320) := by
      rw [List.drop_append_of_le_length (by omega), List.drop_of_length_le (by omega), List.nil_append]
    rw [← hcd]
    refine Eq.trans ?_ (congrArg (fun x => InPlace.ctHead P x (kr.drop 32)) eP)
    exact List.take_left' (InPlace.length_ctHead P _ _)
  refine ⟨writeAt mem cOff (c.take (P.L * 320)), _, _, c, h, ?_, replaced_writeAt _ _ _ _ (by rw [hd]; exact lH) (by omega),
    replaced_writeAt _ _ _ _ lc hc, replaced_writeAt _ _ _ _ (length_sha3_256 _) (by omega)⟩
  rw [hd, hv]; exact hcd.symm

/-- C93: key generation into separate places. -/
theorem C93_keypair {σ : Type} (P : PSet) (rb : RandomBytes σ) (st st1 st2 st3 : σ) (r1 r2 z : List Byte)
    (h1 : Delivers rb 32 st r1 st1) (h2 : Delivers rb 32 st1 r2 st2) (h3 : Delivers rb 32 st2 z st3) (mem : List Byte) (pkOff skOff : Nat)
    (hpk : pkOff + P.PUBLICKEYBYTES ≤ mem.length) (hsk : skOff + P.SECRETKEYBYTES ≤ mem.length)
    (hd : Apart pkOff P.PUBLICKEYBYTES skOff P.SECRETKEYBYTES) :
    ∃ mem1 mem', InPlace.crypto_kem_keypair P rb mem pkOff skOff st = .ok (0, mem', st3) ∧
      Replaced mem mem1 pkOff P.PUBLICKEYBYTES (kemPk (params P) r1 r2) ∧ Replaced mem1 mem' skOff P.SECRETKEYBYTES (kemSk (params P) r1 r2 z) ∧
      slice mem' pkOff P.PUBLICKEYBYTES = kemPk (params P) r1 r2 := by
  have k4 : P.PUBLICKEYBYTES = P.INDCPA_PUBLICKEYBYTES := rfl
  unfold Apart at hd
  rw [params_eq]
  have l1 : (kemPk P.spec r1 r2).length = P.PUBLICKEYBYTES := length_kemPk _ _ _
  have l2 : (kemSk P.spec r1 r2 z).length = P.SECRETKEYBYTES := by
    have e : kemSk P.spec r1 r2 z = pkeKeyGenSk P.spec r2 ++ kemPk P.spec r1 r2 ++ Keccak.sha3_256 (kemPk P.spec r1 r2) ++ z := rfl
    rw [e, List.length_append, List.length_append, List.length_append, length_pkeKeyGenSk, length_kemPk, length_sha3_256, h3.1]; rfl
  have lW : (writeAt mem pkOff (kemPk P.spec r1 r2)).length = mem.length := length_writeAt _ _ _ (by omega)
  refine ⟨_, _, InPlace.crypto_kem_keypair_ok P rb st st1 st2 st3 r1 r2 z h1 h2 h3 mem pkOff skOff hpk hsk (by omega),
    replaced_writeAt _ _ _ _ l1 hpk, replaced_writeAt _ _ _ _ l2 (by omega), ?_⟩
  refine (InPlace.slice_disj _ _ _ (by omega) _ _ (by omega)).trans ?_
  rw [← l1]; exact writeAt_read _ _ _ (by omega)

/-- C93: the public key may be put where the secret key contains it: the secret key is right, and the public key is the one inside of it. -/
theorem C93_keypair_shared {σ : Type} (P : PSet) (rb : RandomBytes σ) (st st1 st2 st3 : σ) (r1 r2 z : List Byte)
    (h1 : Delivers rb 32 st r1 st1) (h2 : Delivers rb 32 st1 r2 st2) (h3 : Delivers rb 32 st2 z st3) (mem : List Byte) (skOff : Nat)
    (hsk : skOff + P.SECRETKEYBYTES ≤ mem.length) :
    ∃ mem', InPlace.crypto_kem_keypair P rb mem (skOff + P.INDCPA_SECRETKEYBYTES) skOff st = .ok (0, mem', st3) ∧
      Replaced mem mem' skOff P.SECRETKEYBYTES (kemSk (params P) r1 r2 z) ∧
      slice mem' (skOff + P.INDCPA_SECRETKEYBYTES) P.PUBLICKEYBYTES = kemPk (params P) r1 r2 := by
  have k1 := PK_eq P
  have k2 := SK_eq P
  have k3 := KSK_eq P
  have k4 : P.PUBLICKEYBYTES = P.INDCPA_PUBLICKEYBYTES := rfl
  rw [params_eq]
  have e : kemSk P.spec r1 r2 z = pkeKeyGenSk P.spec r2 ++ kemPk P.spec r1 r2 ++ Keccak.sha3_256 (kemPk P.spec r1 r2) ++ z := rfl
  have l0 : (pkeKeyGenSk P.spec r2).length = P.L * 416 := length_pkeKeyGenSk _ _
  have l1 : (kemPk P.spec r1 r2).length = P.L * 320 + 32 := length_kemPk _ _ _
  have lh := length_sha3_256 (kemPk P.spec r1 r2)
  have l2 : (kemSk P.spec r1 r2 z).length = P.SECRETKEYBYTES := by
    rw [e, List.length_append, List.length_append, List.length_append, l0, l1, lh, h3.1]; rfl
  have lW : (writeAt mem (skOff + P.INDCPA_SECRETKEYBYTES) (kemPk P.spec r1 r2)).length = mem.length := length_writeAt _ _ _ (by omega)
  have key : writeAt (writeAt mem (skOff + P.INDCPA_SECRETKEYBYTES) (kemPk P.spec r1 r2)) skOff (kemSk P.spec r1 r2 z) = writeAt mem skOff (kemSk P.spec r1 r2 z) := by
    apply List.ext_getElem?
    intro i
    rw [InPlace.getElem?_writeAt _ _ _ (by omega), InPlace.getElem?_writeAt _ _ _ (by omega), InPlace.getElem?_writeAt _ _ _ (by omega)]
    split_ifs <;> first | rfl | omega
  refine ⟨_, InPlace.crypto_kem_keypair_ok P rb st st1 st2 st3 r1 r2 z h1 h2 h3 mem _ skOff (by omega) hsk (by omega), ?_, ?_⟩
  · rw [key]; exact replaced_writeAt _ _ _ _ l2 hsk
  · have hr := writeAt_read mem (kemSk P.spec r1 r2 z) skOff (by omega)
    have : slice (writeAt mem skOff (kemSk P.spec r1 r2 z)) (skOff + P.INDCPA_SECRETKEYBYTES) P.PUBLICKEYBYTES =
        ((kemSk P.spec r1 r2 z).drop P.INDCPA_SECRETKEYBYTES).take P.PUBLICKEYBYTES := by
      conv_rhs => rw [← hr]
      rw [slice, List.drop_take, List.drop_drop, List.take_take, min_eq_left (by omega)]
    rw [key, this, e, List.append_assoc, List.append_assoc, List.drop_append_of_le_length (by omega), List.drop_of_length_le (by omega), List.nil_append]
    exact List.take_left' (by omega)

/-- C93: key generation must not put the public key where the secret key has its secret vector `s` (for instance, at the start of the secret key).  If it does, the
return code is 0 and the public key is right, but it replaces a part of the secret vector: the secret bytes in that place are lost. -/
theorem C93_keypair_over_secret_vector {σ : Type} (P : PSet) (rb : RandomBytes σ) (st st1 st2 st3 : σ) (r1 r2 z : List Byte)
    (h1 : Delivers rb 32 st r1 st1) (h2 : Delivers rb 32 st1 r2 st2) (h3 : Delivers rb 32 st2 z st3) (mem : List Byte) (d skOff : Nat)
    (hsk : skOff + P.SECRETKEYBYTES ≤ mem.length) (hd : d + P.PUBLICKEYBYTES ≤ P.INDCPA_SECRETKEYBYTES) (pk s : List Byte)
    (epk : pk = kemPk (params P) r1 r2) (es : s = pkeKeyGenSk (params P) r2) :
    ∃ mem', InPlace.crypto_kem_keypair P rb mem (skOff + d) skOff st = .ok (0, mem', st3) ∧ slice mem' (skOff + d) P.PUBLICKEYBYTES = pk ∧
      Replaced mem mem' skOff P.SECRETKEYBYTES (s.take d ++ pk ++ s.drop (d + P.PUBLICKEYBYTES) ++ pk ++ Keccak.sha3_256 pk ++ z) := by
  have k1 := PK_eq P
  have k2 := SK_eq P
  have k3 := KSK_eq P
  have k4 : P.PUBLICKEYBYTES = P.INDCPA_PUBLICKEYBYTES := rfl
  rw [params_eq] at epk es
  have l0 : s.length = P.L * 416 := by rw [es]; exact length_pkeKeyGenSk _ _
  have l1 : pk.length = P.L * 320 + 32 := by rw [epk]; exact length_kemPk _ _ _
  have lh := length_sha3_256 pk
  have h := InPlace.crypto_kem_keypair_inside P rb st st1 st2 st3 r1 r2 z h1 h2 h3 mem d skOff hsk (by omega)
  rw [← epk, ← es] at h
  have lT : (writeAt s d pk).length = P.L * 416 := by rw [length_writeAt _ _ _ (by omega), l0]
  have eT : writeAt s d pk = s.take d ++ pk ++ s.drop (d + P.PUBLICKEYBYTES) := by unfold writeAt; rw [l1, k4, k1]
  have lA : (writeAt s d pk ++ pk ++ Keccak.sha3_256 pk ++ z).length = P.SECRETKEYBYTES := by
    rw [List.length_append, List.length_append, List.length_append, lT, l1, lh, h3.1]; omega
  refine ⟨_, h, ?_, ?_⟩
  · have hr := writeAt_read mem (writeAt s d pk ++ pk ++ Keccak.sha3_256 pk ++ z) skOff (by omega)
    have : slice (writeAt mem skOff (writeAt s d pk ++ pk ++ Keccak.sha3_256 pk ++ z)) (skOff + d) P.PUBLICKEYBYTES =
        ((writeAt s d pk ++ pk ++ Keccak.sha3_256 pk ++ z).drop d).take P.PUBLICKEYBYTES := by
      conv_rhs => rw [← hr]
      rw [slice, List.drop_take, List.drop_drop, List.take_take, min_eq_left (by omega)]
    rw [this, List.append_assoc, List.append_assoc, List.drop_append_of_le_length (by omega), List.take_append_of_le_length (by rw [List.length_drop]; omega), k4, k1, ← l1]
    exact writeAt_read _ _ _ (by omega)
  · rw [← eT]; exact replaced_writeAt _ _ _ _ lA hsk

/-- C93: key generation for any overlap of the two keys.  The writes, in their order: the secret vector, the public key, the copy of the public key in the secret key,
its hash and `z`.  If the place of the copy begins `j` bytes after the start of the public key and inside of it, the copy repeats the first `j` bytes of the public key
(`i % 0 = i`: there is no repetition if it begins at the public key or before it); the hash is that of the bytes which are then in the place of the public key. -/
theorem C93_keypair_any {σ : Type} (P : PSet) (rb : RandomBytes σ) (st st1 st2 st3 : σ) (r1 r2 z : List Byte)
    (h1 : Delivers rb 32 st r1 st1) (h2 : Delivers rb 32 st1 r2 st2) (h3 : Delivers rb 32 st2 z st3) (mem : List Byte) (pkOff skOff : Nat)
    (hpk : pkOff + P.PUBLICKEYBYTES ≤ mem.length) (hsk : skOff + P.SECRETKEYBYTES ≤ mem.length) (j : Nat)
    (hj : j = skOff + P.INDCPA_SECRETKEYBYTES - pkOff) :
    ∃ mem1 mem2 mem3 mem4 mem', InPlace.crypto_kem_keypair P rb mem pkOff skOff st = .ok (0, mem', st3) ∧
      Replaced mem mem1 skOff P.INDCPA_SECRETKEYBYTES (pkeKeyGenSk (params P) r2) ∧
      Replaced mem1 mem2 pkOff P.PUBLICKEYBYTES (kemPk (params P) r1 r2) ∧
      Replaced mem2 mem3 (skOff + P.INDCPA_SECRETKEYBYTES) P.PUBLICKEYBYTES
        ((List.range P.PUBLICKEYBYTES).map fun i => (kemPk (params P) r1 r2).getD (i % j) 0) ∧
      Replaced mem3 mem4 (skOff + (P.SECRETKEYBYTES - 64)) 32 (Keccak.sha3_256 (slice mem3 pkOff P.PUBLICKEYBYTES)) ∧
      Replaced mem4 mem' (skOff + (P.SECRETKEYBYTES - 32)) 32 z := by
  have k1 := PK_eq P
  have k2 := SK_eq P
  have k3 := KSK_eq P
  have k4 : P.PUBLICKEYBYTES = P.INDCPA_PUBLICKEYBYTES := rfl
  rw [params_eq]
  subst hj
  simp only [k4] at hpk ⊢
  have l1 : (kemPk P.spec r1 r2).length = P.INDCPA_PUBLICKEYBYTES := length_kemPk _ _ _
  have l2 : (pkeKeyGenSk P.spec r2).length = P.INDCPA_SECRETKEYBYTES := length_pkeKeyGenSk _ _
  have h := InPlace.crypto_kem_keypair_any P rb st st1 st2 st3 r1 r2 z h1 h2 h3 mem pkOff skOff hpk hsk _ _ rfl rfl
  have lD : ((List.range P.INDCPA_PUBLICKEYBYTES).map fun i => (kemPk P.spec r1 r2).getD (i % (skOff + P.INDCPA_SECRETKEYBYTES - pkOff)) 0).length =
    P.INDCPA_PUBLICKEYBYTES := by rw [List.length_map, List.length_range]
  generalize ((List.range P.INDCPA_PUBLICKEYBYTES).map fun i => (kemPk P.spec r1 r2).getD (i % (skOff + P.INDCPA_SECRETKEYBYTES - pkOff)) 0) = D at h lD ⊢
  have lA : (writeAt mem skOff (pkeKeyGenSk P.spec r2)).length = mem.length := length_writeAt _ _ _ (by omega)
  have lB : (writeAt (writeAt mem skOff (pkeKeyGenSk P.spec r2)) pkOff (kemPk P.spec r1 r2)).length = mem.length := by rw [length_writeAt _ _ _ (by omega), lA]
  have lC : (writeAt (writeAt (writeAt mem skOff (pkeKeyGenSk P.spec r2)) pkOff (kemPk P.spec r1 r2)) (skOff + P.INDCPA_SECRETKEYBYTES) D).length = mem.length := by
    rw [length_writeAt _ _ _ (by omega), lB]
  refine ⟨_, _, _, _, _, h, replaced_writeAt _ _ _ _ l2 (by omega), replaced_writeAt _ _ _ _ l1 (by omega), replaced_writeAt _ _ _ _ lD (by omega),
    replaced_writeAt _ _ _ _ (length_sha3_256 _) ?_, replaced_writeAt _ _ _ _ h3.1 ?_⟩
  · refine Nat.le_trans ?_ (Nat.le_of_eq lC.symm); omega
  · refine Nat.le_trans ?_ (Nat.le_of_eq ((length_writeAt _ _ _ ?_).trans lC).symm)
    · omega
    · rw [length_sha3_256]
      refine Nat.le_trans ?_ (Nat.le_of_eq lC.symm); omega

/-- The hypothesis on the place is met by the start of the secret key. -/
example (P : PSet) : 0 + P.PUBLICKEYBYTES ≤ P.INDCPA_SECRETKEYBYTES := by cases P <;> decide

/-- The hypotheses are met by an object that holds a key pair, a ciphertext and a shared secret, with the secret in the place of the start of the ciphertext (for
decapsulation) or of the public key (for encapsulation). -/
example : (∃ mem', InPlace.crypto_kem_dec .saber (List.replicate 4096 0) 2304 2304 0 = .ok (0, mem') ∧ mem'.length = 4096) ∧
    (∃ mem' st', InPlace.crypto_kem_enc .saber tapeRng (List.replicate 4096 0) 0 2000 2000 (List.replicate 32 5, []) = .ok (0, mem', st') ∧ mem'.length = 4096) ∧
    (∃ mem' st', InPlace.crypto_kem_keypair .saber tapeRng (List.replicate 2304 0) 1248 0 (List.replicate 96 5, []) = .ok (0, mem', st') ∧ mem'.length = 2304) := by
  have b1 : PSet.saber.BYTES_CCA_DEC = 1088 := rfl
  have b2 : PSet.saber.SECRETKEYBYTES = 2304 := rfl
  have b3 : PSet.saber.PUBLICKEYBYTES = 992 := rfl
  have b4 : PSet.saber.INDCPA_SECRETKEYBYTES = 1248 := rfl
  have l : ∀ n, (List.replicate n (0 : Byte)).length = n := fun n => List.length_replicate
  refine ⟨?_, ?_, ?_⟩
  · obtain ⟨m, h, hr⟩ := C93_dec .saber (List.replicate 4096 0) 2304 2304 0 (by rw [l]; omega) (by rw [l]; omega) (by rw [l]; omega)
    exact ⟨m, h, hr.1.trans (l _)⟩
  · obtain ⟨m, h, hr, _⟩ := C93_enc .saber tapeRng _ _ _ (tapeRng_delivers 32 (List.replicate 32 5) [] (by simp)) (List.replicate 4096 0) 0 2000 2000
      (by rw [l]; omega) (by rw [l]; omega) (by rw [l]; omega) (by unfold Apart; omega) (by unfold Apart; omega)
    exact ⟨m, _, h, hr.trans (l _)⟩
  · obtain ⟨m, h, hr, _⟩ := C93_keypair_shared .saber tapeRng _ _ _ _ _ _ _ (tapeRng_delivers 32 (List.replicate 96 5) [] (by simp))
      (tapeRng_delivers 32 _ _ (by simp)) (tapeRng_delivers 32 _ _ (by simp)) (List.replicate 2304 0) 0 (by rw [l]; omega)
    exact ⟨m, _, h, hr.1.trans (l _)⟩

/-- The hypotheses of `C93_keypair_any` are met by a public key that begins in the secret vector and ends in the place of its own copy. -/
example : ∃ mem' st', InPlace.crypto_kem_keypair .saber tapeRng (List.replicate 2304 0) 1000 0 (List.replicate 96 5, []) = .ok (0, mem', st') ∧
    ∃ mem1 mem2 : List Byte, Replaced mem1 mem2 1000 992 (kemPk (params .saber) (List.replicate 32 5) (List.replicate 32 5)) := by
  have b2 : PSet.saber.SECRETKEYBYTES = 2304 := rfl
  have b3 : PSet.saber.PUBLICKEYBYTES = 992 := rfl
  have l : (List.replicate 2304 (0 : Byte)).length = 2304 := List.length_replicate
  obtain ⟨m1, m2, _, _, m, h, _, hr, _⟩ := C93_keypair_any .saber tapeRng _ _ _ _ _ _ _ (tapeRng_delivers 32 (List.replicate 96 5) [] (by simp))
    (tapeRng_delivers 32 _ _ (by simp)) (tapeRng_delivers 32 _ _ (by simp)) (List.replicate 2304 0) 1000 0 (by omega) (by omega) _ rfl
  rw [b3] at hr
  exact ⟨m, _, h, m1, m2, by simpa using hr⟩

end Saber.Props

import Verif.Proof.Leak.EraseX4
import Verif.Proof.Leak.ConstTimeX4
import Verif.Props.X4Kem
/-!
# C72: control flow and memory addresses of SaberX4 do not depend on secrets

As in C61 the arrays `t0 .. t3` of `shake128x4` are given 168 bytes: with the 136 bytes they have in the code every call writes outside of them (C62).
-/
namespace Saber.Props
open Spec Leak

/-- C72: leaving out the record gives the modelled functions, on all inputs and for every size of the arrays in `shake128x4`. -/
theorem C72_same_functions {σ : Type} (tSize : Nat) (rb : RandomBytes σ) (st : σ) (pk sk c k : List Byte) :
    (Leak.X4.crypto_kem_keypairWith tSize rb pk sk st).out = X4.crypto_kem_keypairWith tSize rb pk sk st ∧
      (Leak.X4.crypto_kem_encWith tSize rb c k pk st).out = X4.crypto_kem_encWith tSize rb c k pk st ∧
      (Leak.X4.crypto_kem_decWith tSize k c sk).out = X4.crypto_kem_decWith tSize k c sk :=
  ⟨Leak.X4.E_crypto_kem_keypairWith tSize rb pk sk st, Leak.X4.E_crypto_kem_encWith tSize rb c k pk st, Leak.X4.E_crypto_kem_decWith tSize k c sk⟩

theorem countRng_delivers (st : Nat) : ∃ r st', Delivers countRng 32 st r st' :=
  ⟨(List.range 32).map fun i => n8 (st + i), st + 32, by simp, fun buf off hb => by unfold countRng; rw [if_pos hb]⟩

/-- C72: four key generations have one sequence of branches and addresses: it depends neither on the generator nor on what it delivers. -/
theorem C72_keypair_constant_time : ∃ events : List Event, ∀ {σ : Type} (rb : RandomBytes σ), (∀ st, ∃ r st', Delivers rb 32 st r st') →
    ∀ (st : σ) (pk sk : List Byte), pk.length = 3968 → sk.length = 9216 → (Leak.X4.crypto_kem_keypairWith 168 rb pk sk st).trace = events := by
  refine ⟨(Leak.X4.crypto_kem_keypairWith 168 countRng (List.replicate 3968 0) (List.replicate 9216 0) 0).trace, fun rb hrb st pk sk hpk hsk => ?_⟩
  obtain ⟨x, hx⟩ := (C62_repaired_no_UB rb hrb st pk sk (List.replicate 4352 0) (List.replicate 128 0) hpk hsk List.length_replicate List.length_replicate).1
  obtain ⟨y, hy⟩ := (C62_repaired_no_UB countRng countRng_delivers 0 (List.replicate 3968 0) (List.replicate 9216 0) (List.replicate 4352 0)
    (List.replicate 128 0) List.length_replicate List.length_replicate List.length_replicate List.length_replicate).1
  exact ((Leak.X4.CT_crypto_kem_keypairWith 168 rb countRng pk _ sk _ st 0).same _ _ ((C72_same_functions 168 rb st pk sk [] []).1.trans hx)
    ((C72_same_functions 168 countRng 0 _ _ [] []).1.trans hy)).1

/-- C72: so have four encapsulations, for all public keys and all delivered random bytes. -/
theorem C72_enc_constant_time : ∃ events : List Event, ∀ {σ : Type} (rb : RandomBytes σ), (∀ st, ∃ r st', Delivers rb 32 st r st') →
    ∀ (st : σ) (c k pk : List Byte), c.length = 4352 → k.length = 128 → pk.length = 3968 → (Leak.X4.crypto_kem_encWith 168 rb c k pk st).trace = events := by
  refine ⟨(Leak.X4.crypto_kem_encWith 168 countRng (List.replicate 4352 0) (List.replicate 128 0) (List.replicate 3968 0) 0).trace,
    fun rb hrb st c k pk hc hk hpk => ?_⟩
  obtain ⟨x, hx⟩ := (C62_repaired_no_UB rb hrb st pk (List.replicate 9216 0) c k hpk List.length_replicate hc hk).2.1
  obtain ⟨y, hy⟩ := (C62_repaired_no_UB countRng countRng_delivers 0 (List.replicate 3968 0) (List.replicate 9216 0) (List.replicate 4352 0)
    (List.replicate 128 0) List.length_replicate List.length_replicate List.length_replicate List.length_replicate).2.1
  exact ((Leak.X4.CT_crypto_kem_encWith 168 rb countRng c _ k _ pk _ st 0).same _ _ ((C72_same_functions 168 rb st pk [] c k).2.1.trans hx)
    ((C72_same_functions 168 countRng 0 _ [] _ _).2.1.trans hy)).1

/-- C72: so have four decapsulations, for all secret keys and ciphertexts: they do not show which of the ciphertexts are accepted. -/
theorem C72_dec_constant_time : ∃ events : List Event, ∀ k c sk : List Byte, k.length = 128 → c.length = 4352 → sk.length = 9216 →
    (Leak.X4.crypto_kem_decWith 168 k c sk).trace = events := by
  refine ⟨(Leak.X4.crypto_kem_decWith 168 (List.replicate 128 0) (List.replicate 4352 0) (List.replicate 9216 0)).trace, fun k c sk hk hc hsk => ?_⟩
  have h := C61_dec_spec k c sk hk hc hsk
  have h' := C61_dec_spec (List.replicate 128 0) (List.replicate 4352 0) (List.replicate 9216 0) List.length_replicate List.length_replicate
    List.length_replicate
  exact ((Leak.X4.CT_crypto_kem_decWith 168 k _ c _ sk _).same _ _ ((Leak.X4.E_crypto_kem_decWith 168 k c sk).trans h)
    ((Leak.X4.E_crypto_kem_decWith 168 _ _ _).trans h')).1

/-- The hypotheses are met: a source that delivers different bytes in each draw. -/
example : (∀ st, ∃ r st', Delivers countRng 32 st r st') ∧ (List.replicate 9216 (7 : Byte)).length = 9216 :=
  ⟨countRng_delivers, List.length_replicate⟩

/-- The record shows positions: the accesses to the words of the four strings in turn. -/
example (s : List X4.V256) (v : X4.V256) (h : s[3]? = some v) (x : BitVec 64) :
    (Leak.X4.ssWr s 13 x).trace = [.read 3, .write 3] := by
  simp [Leak.X4.ssWr, Leak.rd, Leak.wr, Saber.rd, Bind.bind, LM.bind, h]

end Saber.Props

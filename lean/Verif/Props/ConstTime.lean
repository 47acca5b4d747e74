import Verif.Proof.Leak.Erase
import Verif.Proof.Leak.ConstTime
import Verif.Proof.Leak.EraseU
import Verif.Proof.Leak.ConstTimeU
import Verif.Props.Kem
import Verif.Props.USaber
/-!
# C66: control flow and memory addresses do not depend on secrets

`Leak.f` is the function `f` of the model with a record of all array accesses with their indices, all branches with their directions, all
iterations of loops and all calls of `randombytes` (`Model/Leak`).
-/
namespace Saber.Props
open Spec Leak

/-- C66: leaving out the record gives the modelled functions, on all inputs. -/
theorem C66_same_functions {σ : Type} (P : PSet) (rb : RandomBytes σ) (st : σ) (pk sk c k : List Byte) :
    (Leak.crypto_kem_keypair P rb pk sk st).out = crypto_kem_keypair P rb pk sk st ∧
    (Leak.crypto_kem_enc P rb c k pk st).out = crypto_kem_enc P rb c k pk st ∧
    (Leak.crypto_kem_dec P k c sk).out = crypto_kem_dec P k c sk :=
  ⟨E_crypto_kem_keypair P rb pk sk st, E_crypto_kem_enc P rb c k pk st, E_crypto_kem_dec P k c sk⟩

/-- C66: key generation has one sequence of branches and addresses: it does not depend on the generator and what it delivers, hence not
on the keys. -/
theorem C66_keypair_constant_time (P : PSet) : ∃ events : List Event, ∀ {σ : Type} (rb : RandomBytes σ) (st st1 st2 st3 : σ)
    (r1 r2 z : List Byte), Delivers rb 32 st r1 st1 → Delivers rb 32 st1 r2 st2 → Delivers rb 32 st2 z st3 →
    ∀ pk sk : List Byte, pk.length = P.PUBLICKEYBYTES → sk.length = P.SECRETKEYBYTES →
      (Leak.crypto_kem_keypair P rb pk sk st).trace = events := by
  have l : (List.replicate 96 (0 : Byte)).length = 96 := List.length_replicate
  refine ⟨(Leak.crypto_kem_keypair P tapeRng (List.replicate P.PUBLICKEYBYTES 0) (List.replicate P.SECRETKEYBYTES 0)
    (List.replicate 96 0, [])).trace, ?_⟩
  intro σ rb st st1 st2 st3 r1 r2 z h1 h2 h3 pk sk hpk hsk
  have hr := (E_crypto_kem_keypair P tapeRng (List.replicate P.PUBLICKEYBYTES 0) (List.replicate P.SECRETKEYBYTES 0)
    (List.replicate 96 0, [])).trans (C01_keypair_spec P tapeRng _ _ _ _ _ _ _ (tapeRng_delivers 32 _ [] (by rw [l]; decide))
    (tapeRng_delivers 32 _ _ (by rw [List.length_drop, l]; decide))
    (tapeRng_delivers 32 _ _ (by rw [List.length_drop, List.length_drop, l])) _ _ List.length_replicate List.length_replicate)
  exact ((CT_crypto_kem_keypair P rb tapeRng pk _ sk _ st _).same _ _
    ((E_crypto_kem_keypair P rb pk sk st).trans (C01_keypair_spec P rb st st1 st2 st3 r1 r2 z h1 h2 h3 pk sk hpk hsk)) hr).1

/-- C66: encapsulation has one sequence of branches and addresses, for every public key and every delivered random bytes. -/
theorem C66_enc_constant_time (P : PSet) : ∃ events : List Event, ∀ {σ : Type} (rb : RandomBytes σ) (st st1 : σ) (m : List Byte),
    Delivers rb 32 st m st1 → ∀ c k pk : List Byte, c.length = P.BYTES_CCA_DEC → k.length = 32 → pk.length = P.PUBLICKEYBYTES →
      (Leak.crypto_kem_enc P rb c k pk st).trace = events := by
  refine ⟨(Leak.crypto_kem_enc P tapeRng (List.replicate P.BYTES_CCA_DEC 0) (List.replicate 32 0) (List.replicate P.PUBLICKEYBYTES 0)
    (List.replicate 32 0, [])).trace, ?_⟩
  intro σ rb st st1 m h c k pk hc hk hpk
  have hr := (E_crypto_kem_enc P tapeRng (List.replicate P.BYTES_CCA_DEC 0) (List.replicate 32 0) (List.replicate P.PUBLICKEYBYTES 0)
    (List.replicate 32 0, [])).trans (C02_enc_spec P tapeRng _ _ _ (tapeRng_delivers 32 _ [] (by rw [List.length_replicate])) _ _ _
    List.length_replicate List.length_replicate List.length_replicate)
  exact ((CT_crypto_kem_enc P rb tapeRng c _ k _ pk _ st _).same _ _
    ((E_crypto_kem_enc P rb c k pk st).trans (C02_enc_spec P rb st st1 m h c k pk hc hk hpk)) hr).1

/-- C66: decapsulation has one sequence of branches and addresses, for every secret key and every ciphertext: in particular it is the
same whether the ciphertext is accepted or rejected. -/
theorem C66_dec_constant_time (P : PSet) : ∃ events : List Event, ∀ k c sk : List Byte, k.length = 32 → c.length = P.BYTES_CCA_DEC →
    sk.length = P.SECRETKEYBYTES → (Leak.crypto_kem_dec P k c sk).trace = events := by
  refine ⟨(Leak.crypto_kem_dec P (List.replicate 32 0) (List.replicate P.BYTES_CCA_DEC 0) (List.replicate P.SECRETKEYBYTES 0)).trace, ?_⟩
  intro k c sk hk hc hsk
  exact ((CT_crypto_kem_dec P k _ c _ sk _).same _ _ ((E_crypto_kem_dec P k c sk).trans (C03_dec_spec P k c sk hk hc hsk))
    ((E_crypto_kem_dec P _ _ _).trans (C03_dec_spec P _ _ _ List.length_replicate List.length_replicate List.length_replicate))).1

/-- C66, uSaber and 90s: leaving out the record gives the modelled functions, on all inputs. -/
theorem C66_variants_same_functions {σ : Type} (f : U.Cfg) (rb : RandomBytes σ) (st : σ) (pk sk c k : List Byte) :
    (Leak.U.crypto_kem_keypair f rb pk sk st).out = U.crypto_kem_keypair f rb pk sk st ∧
    (Leak.U.crypto_kem_enc f rb c k pk st).out = U.crypto_kem_enc f rb c k pk st ∧
    (Leak.U.crypto_kem_dec f k c sk).out = U.crypto_kem_dec f k c sk :=
  ⟨Leak.U.E_crypto_kem_keypair f rb pk sk st, Leak.U.E_crypto_kem_enc f rb c k pk st, Leak.U.E_crypto_kem_dec f k c sk⟩

/-- C66, uSaber and 90s: key generation has one sequence of branches and addresses: it does not depend on the generator and what it delivers, hence not
on the keys. -/
theorem C66_variants_keypair_constant_time (f : U.Cfg) : ∃ events : List Event, ∀ {σ : Type} (rb : RandomBytes σ) (st st1 st2 st3 : σ)
    (r1 r2 z : List Byte), Delivers rb 32 st r1 st1 → Delivers rb 32 st1 r2 st2 → Delivers rb 32 st2 z st3 →
    ∀ pk sk : List Byte, pk.length = f.PUBLICKEYBYTES → sk.length = f.SECRETKEYBYTES →
      (Leak.U.crypto_kem_keypair f rb pk sk st).trace = events := by
  have l : (List.replicate 96 (0 : Byte)).length = 96 := List.length_replicate
  refine ⟨(Leak.U.crypto_kem_keypair f tapeRng (List.replicate f.PUBLICKEYBYTES 0) (List.replicate f.SECRETKEYBYTES 0)
    (List.replicate 96 0, [])).trace, ?_⟩
  intro σ rb st st1 st2 st3 r1 r2 z h1 h2 h3 pk sk hpk hsk
  have hr := (Leak.U.E_crypto_kem_keypair f tapeRng (List.replicate f.PUBLICKEYBYTES 0) (List.replicate f.SECRETKEYBYTES 0)
    (List.replicate 96 0, [])).trans (C35_keypair_spec f tapeRng _ _ _ _ _ _ _ (tapeRng_delivers 32 _ [] (by rw [l]; decide))
    (tapeRng_delivers 32 _ _ (by rw [List.length_drop, l]; decide))
    (tapeRng_delivers 32 _ _ (by rw [List.length_drop, List.length_drop, l])) _ _ List.length_replicate List.length_replicate)
  exact ((Leak.U.CT_crypto_kem_keypair f rb tapeRng pk _ sk _ st _).same _ _
    ((Leak.U.E_crypto_kem_keypair f rb pk sk st).trans (C35_keypair_spec f rb st st1 st2 st3 r1 r2 z h1 h2 h3 pk sk hpk hsk)) hr).1

/-- C66, uSaber and 90s: encapsulation has one sequence of branches and addresses, for every public key and every delivered random bytes. -/
theorem C66_variants_enc_constant_time (f : U.Cfg) : ∃ events : List Event, ∀ {σ : Type} (rb : RandomBytes σ) (st st1 : σ) (m : List Byte),
    Delivers rb 32 st m st1 → ∀ c k pk : List Byte, c.length = f.BYTES_CCA_DEC → k.length = 32 → pk.length = f.PUBLICKEYBYTES →
      (Leak.U.crypto_kem_enc f rb c k pk st).trace = events := by
  refine ⟨(Leak.U.crypto_kem_enc f tapeRng (List.replicate f.BYTES_CCA_DEC 0) (List.replicate 32 0) (List.replicate f.PUBLICKEYBYTES 0)
    (List.replicate 32 0, [])).trace, ?_⟩
  intro σ rb st st1 m h c k pk hc hk hpk
  have hr := (Leak.U.E_crypto_kem_enc f tapeRng (List.replicate f.BYTES_CCA_DEC 0) (List.replicate 32 0) (List.replicate f.PUBLICKEYBYTES 0)
    (List.replicate 32 0, [])).trans (C35_enc_spec f tapeRng _ _ _ (tapeRng_delivers 32 _ [] (by rw [List.length_replicate])) _ _ _
    List.length_replicate List.length_replicate List.length_replicate)
  exact ((Leak.U.CT_crypto_kem_enc f rb tapeRng c _ k _ pk _ st _).same _ _
    ((Leak.U.E_crypto_kem_enc f rb c k pk st).trans (C35_enc_spec f rb st st1 m h c k pk hc hk hpk)) hr).1

/-- C66, uSaber and 90s: decapsulation has one sequence of branches and addresses, for every secret key and every ciphertext: in particular it is the
same whether the ciphertext is accepted or rejected. -/
theorem C66_variants_dec_constant_time (f : U.Cfg) : ∃ events : List Event, ∀ k c sk : List Byte, k.length = 32 → c.length = f.BYTES_CCA_DEC →
    sk.length = f.SECRETKEYBYTES → (Leak.U.crypto_kem_dec f k c sk).trace = events := by
  refine ⟨(Leak.U.crypto_kem_dec f (List.replicate 32 0) (List.replicate f.BYTES_CCA_DEC 0) (List.replicate f.SECRETKEYBYTES 0)).trace, ?_⟩
  intro k c sk hk hc hsk
  exact ((Leak.U.CT_crypto_kem_dec f k _ c _ sk _).same _ _ ((Leak.U.E_crypto_kem_dec f k c sk).trans (C35_dec_spec f k c sk hk hc hsk))
    ((Leak.U.E_crypto_kem_dec f _ _ _).trans (C35_dec_spec f _ _ _ List.length_replicate List.length_replicate List.length_replicate))).1

/-- The record shows a comparison that stops at the first difference … -/
def earlyExit (a b : List Byte) : Nat → LM Bool
  | 0 => pure true
  | n + 1 => do
    let x ← Leak.rd a n
    let y ← Leak.rd b n
    branch (decide (x = y))
    if x = y then earlyExit a b n else pure false

example : (earlyExit [1, 2] [1, 2] 2).trace ≠ (earlyExit [1, 2] [1, 3] 2).trace := by decide

/-- … and a table lookup at a secret index. -/
example : (Leak.rd [1, 2, 3] 1).trace ≠ (Leak.rd [1, 2, 3] 2).trace := by decide

/-- The comparison of the code has no such difference. -/
example : (Leak.verify [1, 2] 0 [1, 2] 0 2).trace = (Leak.verify [1, 2] 0 [1, 3] 0 2).trace ∧
    (Leak.verify [1, 2] 0 [1, 2] 0 2).trace = [.iter, .read 0, .read 0, .iter, .read 1, .read 1] := by decide +kernel

end Saber.Props

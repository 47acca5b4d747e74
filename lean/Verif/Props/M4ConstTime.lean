import Verif.Model.Leak.M4Linked
import Verif.Proof.Leak.EraseM4
import Verif.Proof.Leak.ConstTimeM4
import Verif.Props.ArmConstTime
/-!
# C70: control flow and memory addresses of the two Cortex-M4 builds do not depend on secrets

`Leak.M4.f` is the function `f` of the model with a record of all array accesses with their indices, all branches with their directions, all
iterations of loops and all calls of `randombytes` and of the hash library with the positions and lengths of their arguments (`Model/Leak`); the calls
of the assembly show its accesses and decisions (`Model/Arm/Obs.lean`).  What the hash library does inside is not part of this code and not observed.
-/
namespace Saber.Props
open Spec Leak Arm

instance mult_erases (v : Leak.M4.Build) (g : Reg → Val conc.W) (stk : List (Cell (BitVec 16))) :
    Leak.M4.ToomE (Leak.M4.mult v g stk) (M4.mult v g stk) := by
  cases v with
  | tc4kara => exact ⟨fun _ _ _ => rfl⟩
  | striding =>
    have : Leak.M4.KaraE (Leak.M4.kara g stk) (kara_asm g stk) := ⟨fun _ => rfl⟩
    exact ⟨Leak.M4.E_toom_cook_4way_striding .wrap _ _⟩

theorem kara_traces (g : Reg → Val conc.W) (stk : List (Cell (BitVec 16))) (hk : stk.length = 30) (k a : M4.K4)
    (h : kara_asm g stk k = .ok a) : karaEv conc (karaStart g k stk) = karaEv _ (tStart 4 5 .e 4 30 8) := by
  unfold kara_asm at h
  split at h
  · next t ht => exact kara_events hk ht
  · cases h

theorem toom_traces (g : Reg → Val conc.W) (stk : List (Cell (BitVec 16))) (hk : stk.length = 1776) (a b res : List (BitVec 16)) (r)
    (h : toom_asm g stk a b res = .ok r) : toomEv conc (toomStart g a b res stk) = toomEv _ (tStart 3 4 .e 3 1776 12) := by
  unfold toom_asm at h
  split at h
  · next t ht => exact toom_events hk ht
  · cases h

theorem mult_ct (v : Leak.M4.Build) (g g' : Reg → Val conc.W) (stk stk' : List (Cell (BitVec 16))) (hk : stk.length = v.stack)
    (hk' : stk'.length = v.stack) : Leak.M4.ToomCT (Leak.M4.mult v g stk) (Leak.M4.mult v g' stk') := by
  cases v with
  | tc4kara =>
    refine ⟨fun a a' b b' r r' => ⟨fun x y hx hy => ⟨?_, trivial⟩⟩⟩
    exact congrArg (List.map Event.asm) ((toom_traces g stk hk a b r x hx).trans (toom_traces g' stk' hk' a' b' r' y hy).symm)
  | striding =>
    have : Leak.M4.KaraCT (Leak.M4.kara g stk) (Leak.M4.kara g' stk') := by
      refine ⟨fun k k' => ⟨fun x y hx hy => ⟨?_, trivial⟩⟩⟩
      exact congrArg (List.map Event.asm) ((kara_traces g stk hk k x hx).trans (kara_traces g' stk' hk' k' y hy).symm)
    exact ⟨Leak.M4.CT_toom_cook_4way_striding .wrap _ _⟩

theorem mult_correct (v : Leak.M4.Build) (g : Reg → Val conc.W) (hg : ∀ r, g r ≠ .undef) (stk : List (Cell (BitVec 16))) (hk : stk.length = v.stack) :
    (M4.mult v g stk).Correct := by
  cases v with
  | striding => exact C50_toom_striding g hg stk hk
  | tc4kara => exact C51_toom_contract g hg stk hk

/-- C70: leaving out the record gives the modelled functions, on all inputs. -/
theorem C70_same_functions {σ : Type} (P : PSet) (cs : Bool) (lib : M4.Fips202Lib) (v : Leak.M4.Build) (g : Reg → Val conc.W)
    (stk : List (Cell (BitVec 16))) (rb : RandomBytes σ) (st : σ) (pk sk c k : List Byte) :
    (Leak.M4.crypto_kem_keypair P lib (Leak.M4.mult v g stk) cs rb pk sk st).out = M4.crypto_kem_keypair P lib (M4.mult v g stk) cs rb pk sk st ∧
    (Leak.M4.crypto_kem_enc P lib (Leak.M4.mult v g stk) cs rb c k pk st).out = M4.crypto_kem_enc P lib (M4.mult v g stk) cs rb c k pk st ∧
    (Leak.M4.crypto_kem_dec P lib (Leak.M4.mult v g stk) cs k c sk).out = M4.crypto_kem_dec P lib (M4.mult v g stk) cs k c sk :=
  ⟨Leak.M4.E_crypto_kem_keypair P lib _ _ cs rb pk sk st, Leak.M4.E_crypto_kem_enc P lib _ _ cs rb c k pk st,
    Leak.M4.E_crypto_kem_dec P lib _ _ cs k c sk⟩

/-- Registers of an arbitrary caller, for the examples. -/
def m4g0 : Reg → Val conc.W := fun _ => .a (.opq 0)
/-- see `m4g0` -/
def m4stk0 (v : Leak.M4.Build) : List (Cell (BitVec 16)) := List.replicate v.stack .undef

/-- C70: key generation has one sequence of branches, addresses and calls for each parameter set and build: it does not depend on the generator
and what it delivers, the registers and the stack, hence not on the keys. -/
theorem C70_keypair_constant_time (P : PSet) (cs : Bool) (lib : M4.Fips202Lib) (hl : lib.Correct) (v : Leak.M4.Build) :
    ∃ events : List Event, ∀ (g : Reg → Val conc.W) (stk : List (Cell (BitVec 16))) (_ : ∀ r, g r ≠ .undef) (_ : stk.length = v.stack)
      {σ : Type} (rb : RandomBytes σ) (st st1 st2 st3 : σ) (r1 r2 z : List Byte), Delivers rb 32 st r1 st1 →
      Delivers rb 32 st1 r2 st2 → Delivers rb 32 st2 z st3 →
      ∀ pk sk : List Byte, pk.length = P.PUBLICKEYBYTES → sk.length = M4.SECRETKEYBYTES P cs →
        (Leak.M4.crypto_kem_keypair P lib (Leak.M4.mult v g stk) cs rb pk sk st).trace = events := by
  have l : (List.replicate 96 (0 : Byte)).length = 96 := List.length_replicate
  refine ⟨(Leak.M4.crypto_kem_keypair P lib (Leak.M4.mult v m4g0 (m4stk0 v)) cs tapeRng (List.replicate P.PUBLICKEYBYTES 0)
    (List.replicate (M4.SECRETKEYBYTES P cs) 0) (List.replicate 96 0, [])).trace, ?_⟩
  intro g stk hg hk σ rb st st1 st2 st3 r1 r2 z h1 h2 h3 pk sk hpk hsk
  have := mult_ct v g m4g0 stk (m4stk0 v) hk List.length_replicate
  exact ((Leak.M4.CT_crypto_kem_keypair P lib (Leak.M4.mult v g stk) (Leak.M4.mult v m4g0 (m4stk0 v)) cs rb tapeRng pk _ sk _ st _).same _ _
    ((Leak.M4.E_crypto_kem_keypair P lib _ (M4.mult v g stk) cs rb pk sk st).trans
      (C36_keypair_spec P cs lib hl _ (mult_correct v g hg stk hk) rb st st1 st2 st3 r1 r2 z h1 h2 h3 pk sk hpk hsk))
    ((Leak.M4.E_crypto_kem_keypair P lib _ (M4.mult v m4g0 (m4stk0 v)) cs tapeRng _ _ _).trans
      (C36_keypair_spec P cs lib hl _ (mult_correct v m4g0 (fun _ h => nomatch h) (m4stk0 v) List.length_replicate) tapeRng _ _ _ _ _ _ _
        (tapeRng_delivers 32 _ [] (by rw [l]; decide)) (tapeRng_delivers 32 _ _ (by rw [List.length_drop, l]; decide))
        (tapeRng_delivers 32 _ _ (by rw [List.length_drop, List.length_drop, l])) _ _ List.length_replicate List.length_replicate))).1

/-- C70: encapsulation has one sequence of branches, addresses and calls, for every public key and all delivered random bytes. -/
theorem C70_enc_constant_time (P : PSet) (cs : Bool) (lib : M4.Fips202Lib) (hl : lib.Correct) (v : Leak.M4.Build) :
    ∃ events : List Event, ∀ (g : Reg → Val conc.W) (stk : List (Cell (BitVec 16))) (_ : ∀ r, g r ≠ .undef) (_ : stk.length = v.stack)
      {σ : Type} (rb : RandomBytes σ) (st st1 : σ) (m : List Byte), Delivers rb 32 st m st1 →
      ∀ c k pk : List Byte, c.length = P.BYTES_CCA_DEC → k.length = 32 → pk.length = P.PUBLICKEYBYTES →
        (Leak.M4.crypto_kem_enc P lib (Leak.M4.mult v g stk) cs rb c k pk st).trace = events := by
  refine ⟨(Leak.M4.crypto_kem_enc P lib (Leak.M4.mult v m4g0 (m4stk0 v)) cs tapeRng (List.replicate P.BYTES_CCA_DEC 0)
    (List.replicate 32 0) (List.replicate P.PUBLICKEYBYTES 0) (List.replicate 32 0, [])).trace, ?_⟩
  intro g stk hg hk σ rb st st1 m h1 c k pk hc hkl hpk
  have := mult_ct v g m4g0 stk (m4stk0 v) hk List.length_replicate
  exact ((Leak.M4.CT_crypto_kem_enc P lib (Leak.M4.mult v g stk) (Leak.M4.mult v m4g0 (m4stk0 v)) cs rb tapeRng c _ k _ pk _ st _).same _ _
    ((Leak.M4.E_crypto_kem_enc P lib _ (M4.mult v g stk) cs rb c k pk st).trans
      (C36_enc_spec P cs lib hl _ (mult_correct v g hg stk hk) rb st st1 m h1 c k pk hc hkl hpk))
    ((Leak.M4.E_crypto_kem_enc P lib _ (M4.mult v m4g0 (m4stk0 v)) cs tapeRng _ _ _ _).trans
      (C36_enc_spec P cs lib hl _ (mult_correct v m4g0 (fun _ h => nomatch h) (m4stk0 v) List.length_replicate) tapeRng _ _ _
        (tapeRng_delivers 32 _ [] (by rw [List.length_replicate])) _ _ _ List.length_replicate List.length_replicate List.length_replicate))).1

/-- C70: decapsulation has one sequence of branches, addresses and calls, for every secret key and every ciphertext: it does not depend on
whether the ciphertext is accepted. -/
theorem C70_dec_constant_time (P : PSet) (cs : Bool) (lib : M4.Fips202Lib) (hl : lib.Correct) (v : Leak.M4.Build) :
    ∃ events : List Event, ∀ (g : Reg → Val conc.W) (stk : List (Cell (BitVec 16))) (_ : ∀ r, g r ≠ .undef) (_ : stk.length = v.stack)
      (k c sk : List Byte), k.length = 32 → c.length = P.BYTES_CCA_DEC → sk.length = M4.SECRETKEYBYTES P cs →
        (Leak.M4.crypto_kem_dec P lib (Leak.M4.mult v g stk) cs k c sk).trace = events := by
  refine ⟨(Leak.M4.crypto_kem_dec P lib (Leak.M4.mult v m4g0 (m4stk0 v)) cs (List.replicate 32 0) (List.replicate P.BYTES_CCA_DEC 0)
    (List.replicate (M4.SECRETKEYBYTES P cs) 0)).trace, ?_⟩
  intro g stk hg hk k c sk hkl hc hsk
  have := mult_ct v g m4g0 stk (m4stk0 v) hk List.length_replicate
  exact ((Leak.M4.CT_crypto_kem_dec P lib (Leak.M4.mult v g stk) (Leak.M4.mult v m4g0 (m4stk0 v)) cs k _ c _ sk _).same _ _
    ((Leak.M4.E_crypto_kem_dec P lib _ (M4.mult v g stk) cs k c sk).trans
      (C36_dec_spec P cs lib hl _ (mult_correct v g hg stk hk) k c sk hkl hc hsk))
    ((Leak.M4.E_crypto_kem_dec P lib _ (M4.mult v m4g0 (m4stk0 v)) cs _ _ _).trans
      (C36_dec_spec P cs lib hl _ (mult_correct v m4g0 (fun _ h => nomatch h) (m4stk0 v) List.length_replicate) _ _ _
        List.length_replicate List.length_replicate List.length_replicate))).1

/-- C70: in the arithmetic of the C standard, where the striding code can overflow `int` (C39): of two decapsulations without an overflow, the
branches, addresses and calls are the same. -/
theorem C70_dec_strict (P : PSet) (cs : Bool) (lib : M4.Fips202Lib) (g g' : Reg → Val conc.W) (stk stk' : List (Cell (BitVec 16)))
    (hk : stk.length = 30) (hk' : stk'.length = 30) (k c sk k' c' sk' : List Byte) (r r')
    (h : M4.crypto_kem_dec P lib (M4.toom_cook_4way_striding .strict (kara_asm g stk)) cs k c sk = .ok r)
    (h' : M4.crypto_kem_dec P lib (M4.toom_cook_4way_striding .strict (kara_asm g' stk')) cs k' c' sk' = .ok r') :
    (Leak.M4.crypto_kem_dec P lib (Leak.M4.toom_cook_4way_striding .strict (Leak.M4.kara g stk)) cs k c sk).trace =
      (Leak.M4.crypto_kem_dec P lib (Leak.M4.toom_cook_4way_striding .strict (Leak.M4.kara g' stk')) cs k' c' sk').trace := by
  have e1 : Leak.M4.KaraE (Leak.M4.kara g stk) (kara_asm g stk) := ⟨fun _ => rfl⟩
  have e2 : Leak.M4.KaraE (Leak.M4.kara g' stk') (kara_asm g' stk') := ⟨fun _ => rfl⟩
  have : Leak.M4.KaraCT (Leak.M4.kara g stk) (Leak.M4.kara g' stk') := by
    refine ⟨fun k k' => ⟨fun x y hx hy => ⟨?_, trivial⟩⟩⟩
    exact congrArg (List.map Event.asm) ((kara_traces g stk hk k x hx).trans (kara_traces g' stk' hk' k' y hy).symm)
  exact ((Leak.M4.CT_crypto_kem_dec P lib _ _ cs k k' c c' sk sk').same _ _
    ((Leak.M4.E_crypto_kem_dec P lib _ (M4.toom_cook_4way_striding .strict (kara_asm g stk)) cs k c sk).trans h)
    ((Leak.M4.E_crypto_kem_dec P lib _ (M4.toom_cook_4way_striding .strict (kara_asm g' stk')) cs k' c' sk').trans h')).1

/-- The hypotheses can be met: a correct library, registers and stack for both builds. -/
example : M4.refLib.Correct ∧ (∀ r, m4g0 r ≠ .undef) ∧ ∀ v, (m4stk0 v).length = v.stack :=
  ⟨M4.refLib_correct, (fun _ h => nomatch h), fun _ => List.length_replicate⟩

/-- The record shows the calls of the library: absorbing a seed makes three, in this order. -/
example (lib : M4.Fips202Lib) (seed : List Byte) (ctx ctx' : lib.Ctx) (h : lib.inc_init = .ok ctx)
    (h' : lib.inc_absorb ctx seed 7 32 = .ok ctx') :
    (Leak.M4.shake128_absorb_seed lib seed 7).trace =
      [.call "shake128_inc_init" [], .call "shake128_inc_absorb" [7, 32], .call "shake128_inc_finalize" []] := by
  simp only [Leak.M4.shake128_absorb_seed, Leak.M4.lib_inc_init, Leak.M4.lib_inc_absorb, Leak.M4.lib_inc_finalize, Bind.bind, LM.bind, h, h', SEEDBYTES]
  rfl

end Saber.Props

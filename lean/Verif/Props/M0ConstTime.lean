import Verif.Model.Leak.M0Linked
import Verif.Proof.Leak.EraseM0
import Verif.Proof.Leak.ConstTimeM0
import Verif.Props.ArmConstTime
import Verif.Props.M0Asm
/-!
# C69: control flow and memory addresses of the Cortex-M0 build do not depend on secrets

`Leak.M0.f` is the function `f` of the model with a record of all array accesses with their indices, all branches with their directions, all
iterations of loops and all calls of `randombytes` (`Model/Leak`); the calls of `KeccakF1600_StatePermute` run the assembly function and
show its accesses and decisions (`Model/Arm/Obs.lean`).
-/
namespace Saber.Props
open Spec Leak Arm

theorem linked_erases (g : Reg → Val conc.W) (stk : List (Cell (BitVec 16))) : @Erases (Leak.M0.linked g stk) (M0.linked g stk) :=
  @Erases.mk (Leak.M0.linked g stk) (M0.linked g stk) fun _ => rfl

theorem linked_permCT (g g' : Reg → Val conc.W) (stk stk' : List (Cell (BitVec 16))) (hk : stk.length = 32) (hk' : stk'.length = 32) :
    PermCT (Leak.M0.linked g stk) (Leak.M0.linked g' stk') := by
  have key : ∀ (g : Reg → Val conc.W) (stk : List (Cell (BitVec 16))) (hk : stk.length = 32) (s a : List (BitVec 64)),
      Keccak.perm_asm g stk s = .ok a → permEv conc (Keccak.permStart g (Keccak.wordsOfLanes s) stk) = permEv _ (tStart 2 1 pubRC 1 32 8) := by
    intro g stk hk s a h
    unfold Keccak.perm_asm at h
    split at h
    · next t ht => exact perm_events hk ht
    · cases h
  refine ⟨fun s s' => ⟨fun a b ha hb => ⟨?_, trivial⟩⟩⟩
  exact congrArg (List.map Event.asm) ((key g stk hk s a ha).trans (key g' stk' hk' s' b hb).symm)

/-- C69: leaving out the record gives the modelled functions, on all inputs; for every linked permutation, in particular for the assembly. -/
theorem C69_same_functions {σ : Type} (g : Reg → Val conc.W) (stk : List (Cell (BitVec 16))) (mac : M0.Mac) (rb : RandomBytes σ) (st : σ)
    (gs : M0.GS) (pk sk c k : List Byte) :
    (Leak.M0.crypto_kem_keypair (L := Leak.M0.linked g stk) mac rb gs pk sk st).out = @M0.crypto_kem_keypair (M0.linked g stk) σ mac rb gs pk sk st ∧
    (Leak.M0.crypto_kem_enc (L := Leak.M0.linked g stk) mac rb gs c k pk st).out = @M0.crypto_kem_enc (M0.linked g stk) σ mac rb gs c k pk st ∧
    (Leak.M0.crypto_kem_dec (L := Leak.M0.linked g stk) mac gs k c sk).out = @M0.crypto_kem_dec (M0.linked g stk) mac gs k c sk ∧
    (Leak.M0.indcpa_kem_dec mac sk c k).out = M0.indcpa_kem_dec mac sk c k := by
  let _ := Leak.M0.linked g stk
  let _ := M0.linked g stk
  have := linked_erases g stk
  exact ⟨Leak.M0.E_crypto_kem_keypair mac rb gs pk sk st, Leak.M0.E_crypto_kem_enc mac rb gs c k pk st, Leak.M0.E_crypto_kem_dec mac gs k c sk,
    Leak.M0.E_indcpa_kem_dec mac sk c k⟩

/-- Registers, stack and static variables of an arbitrary caller, for the examples. -/
def g0 : Reg → Val conc.W := fun _ => .a (.opq 0)
/-- see `g0` -/
def stk0 : List (Cell (BitVec 16)) := List.replicate 32 .undef
/-- see `g0` -/
def gs0 : M0.GS := ⟨List.replicate 280 0, List.replicate 25 0, 0, 0⟩

/-- C69: key generation has one sequence of branches and addresses: it does not depend on the generator and what it delivers, on the registers, the
stack and the static variables, hence not on the keys. -/
theorem C69_keypair_constant_time : ∃ events : List Event, ∀ (g : Reg → Val conc.W) (stk : List (Cell (BitVec 16))) (_ : ∀ r, g r ≠ .undef)
    (_ : stk.length = 32) {σ : Type} (rb : RandomBytes σ) (st st1 st2 st3 : σ) (r1 r2 z : List Byte), Delivers rb 32 st r1 st1 →
    Delivers rb 32 st1 r2 st2 → Delivers rb 32 st2 z st3 → ∀ (gs : M0.GS), gs.buf.length = 280 ∧ gs.s.length = 25 →
    ∀ pk sk : List Byte, pk.length = 992 → sk.length = 2304 →
      (Leak.M0.crypto_kem_keypair (L := Leak.M0.linked g stk) M0.macWrap rb gs pk sk st).trace = events := by
  have l : (List.replicate 96 (0 : Byte)).length = 96 := List.length_replicate
  refine ⟨(Leak.M0.crypto_kem_keypair (L := Leak.M0.linked g0 stk0) M0.macWrap tapeRng gs0 (List.replicate 992 0) (List.replicate 2304 0)
    (List.replicate 96 0, [])).trace, ?_⟩
  intro g stk hg hk σ rb st st1 st2 st3 r1 r2 z h1 h2 h3 gs hgs pk sk hpk hsk
  have ho : ∀ (g : Reg → Val conc.W) (stk : List (Cell (BitVec 16))) (_ : ∀ r, g r ≠ .undef)
    (_ : stk.length = 32) {σ : Type} (rb : RandomBytes σ) (st st1 st2 st3 : σ) (r1 r2 z : List Byte), Delivers rb 32 st r1 st1 →
    Delivers rb 32 st1 r2 st2 → Delivers rb 32 st2 z st3 → ∀ (gs : M0.GS), gs.buf.length = 280 ∧ gs.s.length = 25 →
    ∀ pk sk : List Byte, pk.length = 992 → sk.length = 2304 →
      ∃ r, (Leak.M0.crypto_kem_keypair (L := Leak.M0.linked g stk) M0.macWrap rb gs pk sk st).out = .ok r := by
    intro g stk hg hk σ rb st st1 st2 st3 r1 r2 z h1 h2 h3 gs hgs pk sk hpk hsk
    exact ⟨_, (C69_same_functions g stk M0.macWrap rb st gs pk sk (List.replicate 1088 0) (List.replicate 32 0)).1.trans
      (C53_kem g hg stk hk rb st st1 st2 st3 r1 r2 z h1 h2 h3 gs hgs pk sk (List.replicate 1088 0) (List.replicate 32 0) hpk hsk
        List.length_replicate List.length_replicate).1⟩
  have := linked_permCT g g0 stk stk0 hk List.length_replicate
  exact ((Leak.M0.CT_crypto_kem_keypair (L := Leak.M0.linked g stk) (L' := Leak.M0.linked g0 stk0) M0.macWrap rb tapeRng gs gs0 pk _ sk _ st _).same _ _
    (ho g stk hg hk rb st st1 st2 st3 r1 r2 z h1 h2 h3 gs hgs pk sk hpk hsk).choose_spec
    (ho g0 stk0 (fun _ h => nomatch h) List.length_replicate tapeRng _ _ _ _ _ _ _ (tapeRng_delivers 32 _ [] (by rw [l]; decide))
      (tapeRng_delivers 32 _ _ (by rw [List.length_drop, l]; decide)) (tapeRng_delivers 32 _ _ (by rw [List.length_drop, List.length_drop, l]))
      gs0 ⟨List.length_replicate, List.length_replicate⟩ _ _ List.length_replicate List.length_replicate).choose_spec).1

/-- C69: encapsulation has one sequence of branches and addresses, for every public key and every delivered random bytes. -/
theorem C69_enc_constant_time : ∃ events : List Event, ∀ (g : Reg → Val conc.W) (stk : List (Cell (BitVec 16))) (_ : ∀ r, g r ≠ .undef)
    (_ : stk.length = 32) {σ : Type} (rb : RandomBytes σ) (st st1 : σ) (m : List Byte), Delivers rb 32 st m st1 →
    ∀ (gs : M0.GS), gs.buf.length = 280 ∧ gs.s.length = 25 → ∀ c k pk : List Byte, c.length = 1088 → k.length = 32 → pk.length = 992 →
      (Leak.M0.crypto_kem_enc (L := Leak.M0.linked g stk) M0.macWrap rb gs c k pk st).trace = events := by
  have ho : ∀ (g : Reg → Val conc.W) (stk : List (Cell (BitVec 16))) (_ : ∀ r, g r ≠ .undef)
    (_ : stk.length = 32) {σ : Type} (rb : RandomBytes σ) (st st1 : σ) (m : List Byte), Delivers rb 32 st m st1 →
    ∀ (gs : M0.GS), gs.buf.length = 280 ∧ gs.s.length = 25 → ∀ c k pk : List Byte, c.length = 1088 → k.length = 32 → pk.length = 992 →
      ∃ r, (Leak.M0.crypto_kem_enc (L := Leak.M0.linked g stk) M0.macWrap rb gs c k pk st).out = .ok r := by
    intro g stk hg hk σ rb st st1 m h1 gs hgs c k pk hc hkl hpk
    let _ := m0Permutation
    let _ := M0.linked g stk
    have := Arm.Keccak.linked_ok g hg stk hk
    exact ⟨_, (C69_same_functions g stk M0.macWrap rb st gs pk (List.replicate 2304 0) c k).2.1.trans
      (C47_enc rb st st1 m h1 gs hgs c k pk hc hkl hpk)⟩
  refine ⟨(Leak.M0.crypto_kem_enc (L := Leak.M0.linked g0 stk0) M0.macWrap tapeRng gs0 (List.replicate 1088 0) (List.replicate 32 0)
    (List.replicate 992 0) (List.replicate 32 0, [])).trace, ?_⟩
  intro g stk hg hk σ rb st st1 m h1 gs hgs c k pk hc hkl hpk
  have := linked_permCT g g0 stk stk0 hk List.length_replicate
  exact ((Leak.M0.CT_crypto_kem_enc (L := Leak.M0.linked g stk) (L' := Leak.M0.linked g0 stk0) M0.macWrap rb tapeRng gs gs0 c _ k _ pk _ st _).same _ _
    (ho g stk hg hk rb st st1 m h1 gs hgs c k pk hc hkl hpk).choose_spec
    (ho g0 stk0 (fun _ h => nomatch h) List.length_replicate tapeRng _ _ _ (tapeRng_delivers 32 _ [] (by rw [List.length_replicate]))
      gs0 ⟨List.length_replicate, List.length_replicate⟩ _ _ _ List.length_replicate List.length_replicate List.length_replicate).choose_spec).1

/-- C69: decryption has one sequence of branches and addresses, for every secret key and every ciphertext, when it is given the 512 bytes for the
message that it writes.  (`crypto_kem_dec` gives it 64 and has no defined run: C40.) -/
theorem C69_decrypt_constant_time : ∃ events : List Event, ∀ sk c m : List Byte, 1248 ≤ sk.length → c.length = 1088 → 512 ≤ m.length →
    (Leak.M0.indcpa_kem_dec M0.macWrap sk c m).trace = events := by
  refine ⟨(Leak.M0.indcpa_kem_dec M0.macWrap (List.replicate 1248 0) (List.replicate 1088 0) (List.replicate 512 0)).trace, ?_⟩
  intro sk c m hsk hc hm
  obtain ⟨o, h⟩ := (C40_decrypt_needs_512 sk c m hc hsk).2 hm
  obtain ⟨o', h'⟩ := (C40_decrypt_needs_512 (List.replicate 1248 0) (List.replicate 1088 0) (List.replicate 512 0) List.length_replicate
    (by rw [List.length_replicate])).2 (by rw [List.length_replicate])
  exact ((Leak.M0.CT_indcpa_kem_dec M0.macWrap sk _ c _ m _).same _ _ ((Leak.M0.E_indcpa_kem_dec M0.macWrap sk c m).trans h)
    ((Leak.M0.E_indcpa_kem_dec M0.macWrap _ _ _).trans h')).1

/-- C69: the same for key generation, encapsulation and decryption in the arithmetic of the C standard: of two runs without an overflow of `int`, the
branches and addresses are the same. -/
theorem C69_strict (g g' : Reg → Val conc.W) (stk stk' : List (Cell (BitVec 16))) (hk : stk.length = 32) (hk' : stk'.length = 32) {σ τ : Type}
    (rb : RandomBytes σ) (rb' : RandomBytes τ) (st : σ) (st' : τ) (gs gs' : M0.GS) (pk sk c k pk' sk' c' k' : List Byte) :
    (∀ r r', @M0.crypto_kem_keypair (M0.linked g stk) σ M0.macC rb gs pk sk st = .ok r →
      @M0.crypto_kem_keypair (M0.linked g' stk') τ M0.macC rb' gs' pk' sk' st' = .ok r' →
      (Leak.M0.crypto_kem_keypair (L := Leak.M0.linked g stk) M0.macC rb gs pk sk st).trace =
        (Leak.M0.crypto_kem_keypair (L := Leak.M0.linked g' stk') M0.macC rb' gs' pk' sk' st').trace) ∧
    (∀ r r', @M0.crypto_kem_enc (M0.linked g stk) σ M0.macC rb gs c k pk st = .ok r →
      @M0.crypto_kem_enc (M0.linked g' stk') τ M0.macC rb' gs' c' k' pk' st' = .ok r' →
      (Leak.M0.crypto_kem_enc (L := Leak.M0.linked g stk) M0.macC rb gs c k pk st).trace =
        (Leak.M0.crypto_kem_enc (L := Leak.M0.linked g' stk') M0.macC rb' gs' c' k' pk' st').trace) ∧
    (∀ r r', M0.indcpa_kem_dec M0.macC sk c k = .ok r → M0.indcpa_kem_dec M0.macC sk' c' k' = .ok r' →
      (Leak.M0.indcpa_kem_dec M0.macC sk c k).trace = (Leak.M0.indcpa_kem_dec M0.macC sk' c' k').trace) := by
  have := linked_permCT g g' stk stk' hk hk'
  obtain ⟨e1, e2, -, e4⟩ := C69_same_functions g stk M0.macC rb st gs pk sk c k
  obtain ⟨f1, f2, -, f4⟩ := C69_same_functions g' stk' M0.macC rb' st' gs' pk' sk' c' k'
  refine ⟨fun r r' h h' => ?_, fun r r' h h' => ?_, fun r r' h h' => ?_⟩
  · exact ((Leak.M0.CT_crypto_kem_keypair (L := Leak.M0.linked g stk) (L' := Leak.M0.linked g' stk') M0.macC rb rb' gs gs' pk pk' sk sk' st st').same
      _ _ (e1.trans h) (f1.trans h')).1
  · exact ((Leak.M0.CT_crypto_kem_enc (L := Leak.M0.linked g stk) (L' := Leak.M0.linked g' stk') M0.macC rb rb' gs gs' c c' k k' pk pk' st st').same
      _ _ (e2.trans h) (f2.trans h')).1
  · exact ((Leak.M0.CT_indcpa_kem_dec M0.macC sk sk' c c' k k').same _ _ (e4.trans h) (f4.trans h')).1

/-- The events of the assembly are in the record: a call of the permutation shows the six turns of its loop. -/
theorem linked_loops (g : Reg → Val conc.W) (hg : ∀ r, g r ≠ .undef) (stk : List (Cell (BitVec 16))) (hk : stk.length = 32) (s : List (BitVec 64))
    (hs : s.length = 25) : (((Leak.M0.linked g stk).permute s).trace.filter fun
    | .asm (.loop _) => true
    | _ => false) = (List.replicate 5 (.asm (.loop true)) ++ [.asm (.loop false)]) := by
  obtain ⟨s', h, -⟩ := Arm.Keccak.perm_asm_ok g hg stk hk s hs
  unfold Keccak.perm_asm at h
  split at h
  · next t ht =>
    show (List.filter _ ((permEv conc _).map Event.asm)) = _
    rw [perm_events hk ht, List.filter_map]
    have e := permEv_loops
    generalize permEv _ (tStart 2 1 pubRC 1 32 8) = l at e ⊢
    exact (congrArg (List.map Event.asm) (List.filter_congr fun x _ => by cases x <;> rfl)).trans (congrArg (List.map Event.asm) e)
  · cases h

example : (∀ r, g0 r ≠ .undef) ∧ stk0.length = 32 ∧ gs0.buf.length = 280 ∧ gs0.s.length = 25 :=
  ⟨(fun _ h => nomatch h), List.length_replicate, List.length_replicate, List.length_replicate⟩

end Saber.Props

import Verif.Proof.Rom
import Verif.Spec.Cca
/-!
# Decapsulation without the secret key
-/
namespace Saber.Ind
open Spec Saber.Hiding Saber.Prob Saber.Rom

/-! ### Oracles -/

section
variable {I O α β : Type}

def bind (a : Alg I O α) (k : α → Alg I O β) : Alg I O β :=
  match a with
  | .ret x => k x
  | .ask i next => .ask i fun o => bind (next o) k

theorem run_bind (f : I → O) (k : α → Alg I O β) : ∀ a : Alg I O α, (bind a k).run f = (k (a.run f)).run f := by
  intro a
  induction a with
  | ret x => rfl
  | ask i next ih => exact ih _

theorem asks_bind (f : I → O) (k : α → Alg I O β) : ∀ a : Alg I O α, (bind a k).asks f = a.asks f ++ (k (a.run f)).asks f := by
  intro a
  induction a with
  | ret x => rfl
  | ask i next ih => exact congrArg (i :: ·) (ih _)

theorem run_congr (f g : I → O) : ∀ a : Alg I O α, (∀ i ∈ a.asks f, g i = f i) → a.run g = a.run f := by
  intro a
  induction a with
  | ret a => intro _; rfl
  | ask i next ih =>
    intro h
    simp only [Alg.asks, List.mem_cons, forall_eq_or_imp] at h
    simp only [Alg.run, h.1]
    exact ih _ h.2
end

/-- The questions to the second function, if the first is `G`; questions for decapsulation are answered by `D`, which may ask, too. -/
def viaF {I V Y B C α : Type} (G : I → V) (D : C → Alg Y B B) : Cca I V Y B C α → Alg Y B α
  | .ret a => .ret a
  | .askG x next => viaF G D (next (G x))
  | .askF y next => .ask y fun b => viaF G D (next b)
  | .askD c next => bind (D c) fun b => viaF G D (next b)

theorem run_viaF {I V Y B C α : Type} (G : I → V) (D : C → Alg Y B B) (F : Y → B) : ∀ a : Cca I V Y B C α,
    (viaF G D a).run F = a.run G F fun c => (D c).run F := by
  intro a
  induction a with
  | ret a => rfl
  | askG x next ih => exact ih _
  | askF y next ih => exact ih _
  | askD c next ih =>
    show (bind (D c) _).run F = _
    rw [run_bind]
    exact ih _

theorem atMost_viaF {I V Y B C α : Type} (G : I → V) (D : C → Alg Y B B) (hD : ∀ c, (D c).AtMost 1) : ∀ (a : Cca I V Y B C α) (qG qF qD : Nat),
    a.AtMost qG qF qD → (viaF G D a).AtMost (qF + qD) := by
  intro a
  induction a with
  | ret a => intro _ _ _ _ f; exact Nat.zero_le _
  | askG x next ih => intro qG qF qD h; exact ih _ _ _ _ (h.2 _)
  | askF y next ih =>
    intro qG qF qD h f
    have h1 := ih (f y) _ _ _ (h.2 (f y)) f
    have h0 := h.1
    show ((viaF G D (next (f y))).asks f).length + 1 ≤ _
    omega
  | askD c next ih =>
    intro qG qF qD h f
    have h0 := h.1
    show ((bind (D c) _).asks f).length ≤ _
    rw [asks_bind, List.length_append]
    have h1 := ih ((D c).run f) _ _ _ (h.2 ((D c).run f)) f
    have h2 := hD c f
    omega

/-! ### The secret string for rejected ciphertexts -/

section
variable {E K Y B : Type} [Fintype E] [Fintype K] [DecidableEq K] [Nonempty K] [Fintype Y] [DecidableEq Y] [Fintype B] [Nonempty B]

def patch (F : K × Y → B) (z : K) (J : Y → B) : K × Y → B := fun p => if p.1 = z then J p.2 else F p

theorem fraction_patch (P : E → K → (K × Y → B) → Prop) : fraction (fun d : E × K × (K × Y → B) => P d.1 d.2.1 d.2.2) =
    fraction (fun d : (E × K × (K × Y → B)) × (Y → B) => P d.1.1 d.1.2.1 (patch d.1.2.2 d.1.2.1 d.2)) := by
  let e : (E × K × (K × Y → B)) × (Y → B) ≃ (E × K × (K × Y → B)) × (Y → B) := {
    toFun d := ((d.1.1, d.1.2.1, patch d.1.2.2 d.1.2.1 d.2), fun y => d.1.2.2 (d.1.2.1, y))
    invFun d := ((d.1.1, d.1.2.1, patch d.1.2.2 d.1.2.1 d.2), fun y => d.1.2.2 (d.1.2.1, y))
    left_inv d := by
      obtain ⟨⟨e, z, F⟩, J⟩ := d
      have h1 : patch (patch F z J) z (fun y => F (z, y)) = F := by
        funext p
        obtain ⟨k, y⟩ := p
        unfold patch
        by_cases h : k = z
        · subst h; rw [if_pos rfl]
        · rw [if_neg h, if_neg h]
      have h2 : (fun y => patch F z J (z, y)) = J := by
        funext y
        exact if_pos rfl
      show ((e, z, patch (patch F z J) z (fun y => F (z, y))), fun y => patch F z J (z, y)) = _
      rw [h1, h2]
    right_inv d := by
      obtain ⟨⟨e, z, F⟩, J⟩ := d
      have h1 : patch (patch F z J) z (fun y => F (z, y)) = F := by
        funext p
        obtain ⟨k, y⟩ := p
        unfold patch
        by_cases h : k = z
        · subst h; rw [if_pos rfl]
        · rw [if_neg h, if_neg h]
      have h2 : (fun y => patch F z J (z, y)) = J := by
        funext y
        exact if_pos rfl
      show ((e, z, patch (patch F z J) z (fun y => F (z, y))), fun y => patch F z J (z, y)) = _
      rw [h1, h2] }
  rw [← fraction_fst (Ω' := Y → B) (fun d : E × K × (K × Y → B) => P d.1 d.2.1 d.2.2), ← fraction_equiv e]
  exact fraction_congr fun d => Iff.rfl

omit [Fintype Y] [DecidableEq Y] [Fintype B] [Nonempty B] [DecidableEq K] in
theorem fraction_mem (l : List K) : fraction (fun w => w ∈ l) ≤ l.length / Fintype.card K := by
  classical
  unfold fraction
  refine div_le_div_of_nonneg_right ?_ (by positivity)
  rw [count_eq, show Finset.univ.filter (fun w => w ∈ l) = l.toFinset by ext w; simp]
  exact_mod_cast List.toFinset_card_le l

theorem z_step [Nonempty E] (P : E → K → (K × Y → B) → Prop) (g : E → (Y → B) → Alg (K × Y) B Bool)
    (hg : ∀ e z F J, P e z (patch F z J) ↔ (g e J).run (patch F z J) = true) (n : Nat) (hn : ∀ e J, (g e J).AtMost n) :
    |fraction (fun d : E × K × (K × Y → B) => P d.1 d.2.1 d.2.2) - fraction (fun d : E × (Y → B) × (K × Y → B) => (g d.1 d.2.1).run d.2.2 = true)| ≤
      n / Fintype.card K := by
  let e : (E × K × (K × Y → B)) × (Y → B) ≃ (E × (Y → B) × (K × Y → B)) × K := {
    toFun d := ((d.1.1, d.2, d.1.2.2), d.1.2.1)
    invFun y := ((y.1.1, y.2, y.1.2.2), y.1.2.1)
    left_inv d := rfl
    right_inv y := rfl }
  rw [fraction_patch, ← fraction_fst (Ω' := K) (fun d : E × (Y → B) × (K × Y → B) => (g d.1 d.2.1).run d.2.2 = true), ← fraction_equiv e]
  refine (fraction_diff (r := fun d => d.1.2.1 ∈ ((g d.1.1 d.2).asks d.1.2.2).map Prod.fst) fun d hd => ?_).trans ?_
  · rw [hg, run_congr d.1.2.2 (patch d.1.2.2 d.1.2.1 d.2) (g d.1.1 d.2)]
    · rfl
    · intro i hi
      unfold patch
      rw [if_neg]
      rintro h
      exact hd (h ▸ List.mem_map_of_mem hi)
  · refine le_of_eq_of_le (fraction_equiv e fun y => y.2 ∈ ((g y.1.1 y.1.2.1).asks y.1.2.2).map Prod.fst) ?_
    refine fraction_hit (fun (y : E × (Y → B) × (K × Y → B)) z => z ∈ ((g y.1 y.2.1).asks y.2.2).map Prod.fst) _ fun y => ?_
    refine (fraction_mem _).trans (div_le_div_of_nonneg_right ?_ (by positivity))
    rw [List.length_map]
    exact_mod_cast hn y.1 y.2.1 y.2.2

/-! ### The shared secret of a random first key -/

theorem k_step [Nonempty E] (y : E → Y) (g : E → B → Alg (K × Y) B Bool) (n : Nat) (hn : ∀ e b, (g e b).AtMost n) :
    |fraction (fun d : (E × K) × (K × Y → B) => (g d.1.1 (d.2 (d.1.2, y d.1.1))).run d.2 = true) -
      fraction (fun d : E × (K × Y → B) × B => (g d.1 d.2.2).run d.2.1 = true)| ≤ n / Fintype.card K := by
  let e : (E × K) × (K × Y → B) × B ≃ (E × (K × Y → B) × B) × K := {
    toFun d := ((d.1.1, d.2.1, d.2.2), d.1.2)
    invFun y := ((y.1.1, y.2), y.1.2.1, y.1.2.2)
    left_inv d := rfl
    right_inv y := rfl }
  rw [fraction_update (fun d : E × K => (d.2, y d.1)) fun d F b => (g d.1 b).run F = true,
    ← fraction_fst (Ω' := K) (fun d : E × (K × Y → B) × B => (g d.1 d.2.2).run d.2.1 = true), ← fraction_equiv e]
  refine (fraction_diff (r := fun d => d.1.2 ∈ ((g d.1.1 d.2.2).asks d.2.1).map Prod.fst) fun d hd => ?_).trans ?_
  · rw [run_update]
    · rfl
    · intro hi
      exact hd (List.mem_map.mpr ⟨_, hi, rfl⟩)
  · refine le_of_eq_of_le (fraction_equiv e fun y => y.2 ∈ ((g y.1.1 y.1.2.2).asks y.1.2.1).map Prod.fst) ?_
    refine fraction_hit (fun (y : E × (K × Y → B) × B) z => z ∈ ((g y.1 y.2.2).asks y.2.1).map Prod.fst) _ fun y => ?_
    refine (fraction_mem _).trans (div_le_div_of_nonneg_right ?_ (by positivity))
    rw [List.length_map]
    exact_mod_cast hn y.1 y.2.2 y.2.1

end

/-! ### Decapsulation from the questions asked -/

section
variable {I V Y B C α : Type} [Fintype I] [DecidableEq I] [Fintype V] [Nonempty V]

theorem fraction_update1 (x : I) (p : (I → V) → V → Prop) :
    fraction (fun G : I → V => p G (G x)) = fraction (fun y : (I → V) × V => p (Function.update y.1 x y.2) y.2) := by
  let e : (I → V) × V ≃ (I → V) × V := {
    toFun d := (Function.update d.1 x d.2, d.1 x)
    invFun d := (Function.update d.1 x d.2, d.1 x)
    left_inv d := by simp
    right_inv d := by simp }
  rw [← fraction_fst (Ω' := V) (fun G : I → V => p G (G x)), ← fraction_equiv e]
  refine fraction_congr fun d => ?_
  show p (Function.update d.1 x d.2) (Function.update d.1 x d.2 x) ↔ _
  rw [Function.update_self]

theorem fraction_eval (x : I) (p : V → Prop) : fraction (fun G : I → V => p (G x)) = fraction p := by
  rw [fraction_update1 x fun _ v => p v]
  exact (fraction_equiv (Equiv.prodComm (I → V) V) fun y => p y.1).trans (fraction_fst p)

omit [Fintype I] [DecidableEq I] [Nonempty V] in
theorem fraction_split {Ω : Type} [Fintype Ω] [Nonempty Ω] [Nonempty V] (bad : V → Prop) (E : Ω → V → Prop) (β : ℚ) (hβ : 0 ≤ β) (h : ∀ v, ¬ bad v → fraction (fun ω => E ω v) ≤ β) :
    fraction (fun y : Ω × V => E y.1 y.2) ≤ fraction bad + β := by
  have h1 : fraction (fun y : Ω × V => E y.1 y.2) ≤ fraction (fun y : Ω × V => bad y.2 ∨ (¬ bad y.2 ∧ E y.1 y.2)) :=
    fraction_mono fun y hy => by
      by_cases hb : bad y.2
      · exact .inl hb
      · exact .inr ⟨hb, hy⟩
  refine h1.trans ((fraction_or _ _).trans (add_le_add (le_of_eq ?_) ?_))
  · exact (fraction_equiv (Equiv.prodComm Ω V) fun y => bad y.1).trans (fraction_fst bad)
  · refine le_of_eq_of_le (fraction_equiv (Equiv.prodComm Ω V) fun y => ¬ bad y.1 ∧ E y.2 y.1) ?_
    refine fraction_hit (fun (v : V) (ω : Ω) => ¬ bad v ∧ E ω v) β fun v => ?_
    by_cases hb : bad v
    · refine le_trans (le_of_eq ?_) hβ
      unfold fraction
      rw [show count (fun ω => ¬ bad v ∧ E ω v) = 0 by
        classical
        rw [count_eq, Finset.card_eq_zero, Finset.filter_eq_empty_iff]
        exact fun u _ e => e.1 hb, Nat.cast_zero, zero_div]
    · exact (fraction_mono fun ω hω => hω.2).trans (h v hb)

/-- The function with the values `g0` at the places `S`. -/
def over (S : List I) (g0 G : I → V) : I → V := fun x => if x ∈ S then g0 x else G x

omit [Fintype I] [Fintype V] [Nonempty V] in
theorem over_update (S : List I) (g0 G : I → V) (x : I) (v : V) (h : x ∉ S) : over S g0 (Function.update G x v) = over (x :: S) (Function.update g0 x v) G := by
  funext y
  unfold over
  by_cases hy : y = x
  · subst hy
    rw [if_neg h, if_pos List.mem_cons_self, Function.update_self, Function.update_self]
  · rw [Function.update_of_ne hy, Function.update_of_ne hy]
    simp only [List.mem_cons, hy, false_or]

/-- Decapsulation. -/
def DG [DecidableEq C] (c' : C) (e0 : B) (dq : C → I) (ok : I → V → C → Bool) (acc : V → C → B) (rej : C → B) (G : I → V) (c : C) : B :=
  if c = c' then e0 else if ok (dq c) (G (dq c)) c = true then acc (G (dq c)) c else rej c

/-- Decapsulation from the questions asked. -/
def DS [DecidableEq C] (c' : C) (e0 : B) (ok : I → V → C → Bool) (acc : V → C → B) (rej : C → B) (log : List (I × V)) (c : C) : B :=
  if c = c' then e0 else match log.find? fun p => ok p.1 p.2 c with
    | some p => acc p.2 c
    | none => rej c

theorem tree [DecidableEq C] (F : Y → B) (c' : C) (e0 : B) (dq : C → I) (ok : I → V → C → Bool) (acc : V → C → B) (rej : C → B) (δ γ : ℚ)
    (hδ : ∀ x, fraction (fun v => ∃ c, ok x v c = true ∧ dq c ≠ x) ≤ δ) (hγ : ∀ x c, fraction (fun v => ok x v c = true) ≤ γ) (x' : I)
    : ∀ (a : Cca I V Y B C α) (qG qF qD : Nat), a.AtMost qG qF qD → ∀ (S : List I) (g0 : I → V) (log : List (I × V)),
      x' ∈ S → (∀ c, ok x' (g0 x') c = true → c = c') →
      (∀ p ∈ log, p.1 ∈ S ∧ p.2 = g0 p.1 ∧ (p.1 = x' ∨ ∀ c, ok p.1 p.2 c = true → dq c = p.1)) → (∀ x ∈ S, x = x' ∨ (x, g0 x) ∈ log) →
      fraction (fun G => a.run (over S g0 G) F (DG c' e0 dq ok acc rej (over S g0 G)) ≠ (a.sim F (DS c' e0 ok acc rej) log).run (over S g0 G)) ≤ qG * δ + qD * γ := by
  have δ0 : 0 ≤ δ := (fraction_nonneg _).trans (hδ x')
  have γ0 : 0 ≤ γ := (fraction_nonneg _).trans (hγ x' c')
  intro a
  induction a with
  | ret a =>
    intro qG qF qD _ S g0 log _ _ _ _
    refine le_trans (le_of_eq ?_) (by positivity : 0 ≤ qG * δ + qD * γ)
    unfold fraction
    rw [show count (fun G : I → V => (Cca.ret a : Cca I V Y B C α).run (over S g0 G) F (DG c' e0 dq ok acc rej (over S g0 G)) ≠
        ((Cca.ret a : Cca I V Y B C α).sim F (DS c' e0 ok acc rej) log).run (over S g0 G)) = 0 by
      classical
      rw [count_eq, Finset.card_eq_zero, Finset.filter_eq_empty_iff]
      exact fun u _ e => e rfl, Nat.cast_zero, zero_div]
  | askF y next ih =>
    intro qG qF qD h S g0 log h1 h2 h3 h4
    exact ih (F y) _ _ _ (h.2 _) S g0 log h1 h2 h3 h4
  | askG x next ih =>
    intro qG qF qD h S g0 log h1 h2 h3 h4
    obtain ⟨n, rfl⟩ : ∃ n, qG = n + 1 := ⟨qG - 1, by have := h.1; omega⟩
    have hn := h.2
    rw [Nat.add_sub_cancel] at hn
    by_cases hx : x ∈ S
    · have e (G : I → V) : over S g0 G x = g0 x := if_pos hx
      refine le_trans (le_of_eq_of_le (fraction_congr fun G => ?_) (ih (g0 x) n qF qD (hn _) S g0 ((x, g0 x) :: log) h1 h2 ?_ ?_)) ?_
      · show (next (over S g0 G x)).run _ F _ ≠ ((next (over S g0 G x)).sim F _ ((x, over S g0 G x) :: log)).run _ ↔ _
        rw [e]
      · intro p hp
        rcases List.mem_cons.mp hp with rfl | hp
        · rcases h4 x hx with rfl | hl
          · exact ⟨hx, rfl, .inl rfl⟩
          · exact h3 _ hl
        · exact h3 p hp
      · intro x2 hx2
        rcases h4 x2 hx2 with h | h
        · exact .inl h
        · exact .inr (List.mem_cons_of_mem _ h)
      · push_cast
        nlinarith
    · have hxx : x ≠ x' := fun e => hx (e ▸ h1)
      have e : fraction (fun G : I → V => (Cca.askG x next : Cca I V Y B C α).run (over S g0 G) F (DG c' e0 dq ok acc rej (over S g0 G)) ≠
          ((Cca.askG x next : Cca I V Y B C α).sim F (DS c' e0 ok acc rej) log).run (over S g0 G)) =
          fraction (fun G : I → V => (next (G x)).run (over S g0 G) F (DG c' e0 dq ok acc rej (over S g0 G)) ≠
          ((next (G x)).sim F (DS c' e0 ok acc rej) ((x, G x) :: log)).run (over S g0 G)) := fraction_congr fun G => by
        show (next (over S g0 G x)).run _ F _ ≠ ((next (over S g0 G x)).sim F _ ((x, over S g0 G x) :: log)).run _ ↔ _
        rw [show over S g0 G x = G x from if_neg hx]
      rw [e, fraction_update1 x fun G v => (next v).run (over S g0 G) F (DG c' e0 dq ok acc rej (over S g0 G)) ≠
          ((next v).sim F (DS c' e0 ok acc rej) ((x, v) :: log)).run (over S g0 G)]
      refine (fraction_split (fun v => ∃ c, ok x v c = true ∧ dq c ≠ x) (fun (G : I → V) v => (next v).run (over S g0 (Function.update G x v)) F
        (DG c' e0 dq ok acc rej (over S g0 (Function.update G x v))) ≠ ((next v).sim F (DS c' e0 ok acc rej) ((x, v) :: log)).run (over S g0 (Function.update G x v)))
        (n * δ + qD * γ) (by positivity) fun v hv => ?_).trans ?_
      · simp only [over_update S g0 _ x v hx]
        have u1 : Function.update g0 x v x' = g0 x' := Function.update_of_ne (Ne.symm hxx) _ _
        refine ih v n qF qD (hn v) (x :: S) (Function.update g0 x v) ((x, v) :: log) (List.mem_cons_of_mem _ h1) (by rw [u1]; exact h2) ?_ ?_
        · intro p hp
          rcases List.mem_cons.mp hp with rfl | hp
          · refine ⟨List.mem_cons_self, (Function.update_self x v g0).symm, .inr fun c hc => ?_⟩
            by_contra hne
            exact hv ⟨c, hc, hne⟩
          · obtain ⟨q1, q2, q3⟩ := h3 p hp
            refine ⟨List.mem_cons_of_mem _ q1, ?_, q3⟩
            rw [Function.update_of_ne (show p.1 ≠ x from fun e => hx (e ▸ q1))]
            exact q2
        · intro x2 hx2
          rcases List.mem_cons.mp hx2 with rfl | hx2
          · right
            rw [Function.update_self]
            exact List.mem_cons_self
          · rcases h4 x2 hx2 with h | h
            · exact .inl h
            · right
              rw [Function.update_of_ne (show x2 ≠ x from fun e => hx (e ▸ hx2))]
              exact List.mem_cons_of_mem _ h
      · have := hδ x
        push_cast
        linarith
  | askD c next ih =>
    intro qG qF qD h S g0 log h1 h2 h3 h4
    obtain ⟨n, rfl⟩ : ∃ n, qD = n + 1 := ⟨qD - 1, by have := h.1; omega⟩
    have hn := h.2
    rw [Nat.add_sub_cancel] at hn
    -- what is found among the questions
    have found (hc : c ≠ c') (p : I × V) (hp : log.find? (fun p => ok p.1 p.2 c) = some p) : p.1 ∈ S ∧ p.2 = g0 p.1 ∧ dq c = p.1 ∧ ok p.1 p.2 c = true ∧ p.1 ≠ x' := by
      have q0 : ok p.1 p.2 c = true := by simpa using List.find?_some hp
      obtain ⟨q1, q2, q3⟩ := h3 p (List.mem_of_find?_eq_some hp)
      have qx : p.1 ≠ x' := fun e => hc (h2 c (by rw [← e, ← q2]; exact q0))
      rcases q3 with q3 | q3
      · exact absurd q3 qx
      · exact ⟨q1, q2, q3 c q0, q0, qx⟩
    have same (b : B) (hb : DS c' e0 ok acc rej log c = b) (hG : ∀ G, DG c' e0 dq ok acc rej (over S g0 G) c = b) :
        fraction (fun G : I → V => (Cca.askD c next : Cca I V Y B C α).run (over S g0 G) F (DG c' e0 dq ok acc rej (over S g0 G)) ≠
          ((Cca.askD c next : Cca I V Y B C α).sim F (DS c' e0 ok acc rej) log).run (over S g0 G)) ≤ qG * δ + ((n + 1 : Nat) : ℚ) * γ := by
      refine le_trans (le_of_eq_of_le (fraction_congr fun G => ?_) (ih b qG qF n (hn _) S g0 log h1 h2 h3 h4)) (by push_cast; nlinarith)
      show (next (DG c' e0 dq ok acc rej (over S g0 G) c)).run _ F _ ≠ ((next (DS c' e0 ok acc rej log c)).sim F _ log).run _ ↔ _
      rw [hb, hG]
    by_cases hc : c = c'
    · exact same e0 (by rw [DS, if_pos hc]) fun G => by rw [DG, if_pos hc]
    by_cases hx : dq c ∈ S
    · have e (G : I → V) : over S g0 G (dq c) = g0 (dq c) := if_pos hx
      cases hf : log.find? (fun p => ok p.1 p.2 c) with
      | some p =>
        obtain ⟨q1, q2, q3, q4, q5⟩ := found hc p hf
        refine same (acc p.2 c) (by rw [DS, if_neg hc, hf]) fun G => ?_
        rw [DG, if_neg hc, e, q3, ← q2, if_pos q4]
      | none =>
        refine same (rej c) (by rw [DS, if_neg hc, hf]) fun G => ?_
        rw [DG, if_neg hc, e, if_neg]
        intro hok
        rcases h4 _ hx with hx' | hl
        · exact hc (h2 c (hx' ▸ hok))
        · have := List.find?_eq_none.mp hf _ hl
          exact this hok
    · have hf : log.find? (fun p => ok p.1 p.2 c) = none := by
        cases hf : log.find? (fun p => ok p.1 p.2 c) with
        | none => rfl
        | some p =>
          obtain ⟨q1, q2, q3, q4, q5⟩ := found hc p hf
          exact absurd (q3 ▸ q1) hx
      have e (G : I → V) : over S g0 G (dq c) = G (dq c) := if_neg hx
      have hs : DS c' e0 ok acc rej log c = rej c := by rw [DS, if_neg hc, hf]
      have h5 := ih (rej c) qG qF n (hn _) S g0 log h1 h2 h3 h4
      refine (fraction_mono (q := fun G => ok (dq c) (G (dq c)) c = true ∨ (next (rej c)).run (over S g0 G) F (DG c' e0 dq ok acc rej (over S g0 G)) ≠
        ((next (rej c)).sim F (DS c' e0 ok acc rej) log).run (over S g0 G)) fun G hG => ?_).trans ((fraction_or _ _).trans ?_)
      · by_cases hok : ok (dq c) (G (dq c)) c = true
        · exact .inl hok
        · right
          have hG' : (next (DG c' e0 dq ok acc rej (over S g0 G) c)).run (over S g0 G) F (DG c' e0 dq ok acc rej (over S g0 G)) ≠
            ((next (DS c' e0 ok acc rej log c)).sim F (DS c' e0 ok acc rej) log).run (over S g0 G) := hG
          rwa [hs, show DG c' e0 dq ok acc rej (over S g0 G) c = rej c by rw [DG, if_neg hc, e, if_neg hok]] at hG'
      · have h6 : fraction (fun G : I → V => ok (dq c) (G (dq c)) c = true) ≤ γ := by
          rw [fraction_eval (dq c) fun v => ok (dq c) v c = true]
          exact hγ _ _
        push_cast
        linarith

end

/-! ### The games -/

theorem sim_atMost {I V Y B C α : Type} (F : Y → B) (D : List (I × V) → C → B) : ∀ (a : Cca I V Y B C α) (qG qF qD : Nat), a.AtMost qG qF qD →
    ∀ log, (a.sim F D log).AtMost qG := by
  intro a
  induction a with
  | ret a => intro _ _ _ _ _ f; exact Nat.zero_le _
  | askG x next ih =>
    intro qG qF qD h log f
    have h1 := ih (f x) _ _ _ (h.2 (f x)) ((x, f x) :: log) f
    have h0 := h.1
    show (((next (f x)).sim F D ((x, f x) :: log)).asks f).length + 1 ≤ _
    omega
  | askF y next ih => intro qG qF qD h log; exact ih _ _ _ _ (h.2 _) log
  | askD c next ih => intro qG qF qD h log; exact ih _ _ _ _ (h.2 _) log

theorem fraction_mean {Ω W : Type} [Fintype Ω] [Nonempty Ω] [Fintype W] [Nonempty W] (p : Ω → W → Prop) (f : Ω → ℚ) (h : ∀ ω, fraction (p ω) ≤ f ω) :
    fraction (fun y : Ω × W => p y.1 y.2) ≤ mean f := by
  classical
  have hc : (0 : ℚ) < Fintype.card W := by exact_mod_cast Fintype.card_pos
  have e : count (fun y : Ω × W => p y.1 y.2) = ∑ ω, count (p ω) := by
    simp only [count_eq]
    rw [Finset.card_filter, ← Finset.univ_product_univ, Finset.sum_product]
    exact Finset.sum_congr rfl fun ω _ => (Finset.card_filter _ _).symm
  unfold fraction mean
  rw [e, Fintype.card_prod, Nat.cast_mul, mul_comm, ← div_div]
  refine div_le_div_of_nonneg_right ?_ (by positivity)
  rw [Nat.cast_sum, Finset.sum_div]
  exact Finset.sum_le_sum fun ω _ => h ω

theorem mean_diff {Ω W : Type} [Fintype Ω] [Nonempty Ω] [Fintype W] [Nonempty W] (p q : Ω → W → Prop) (f : Ω → ℚ) (h : ∀ ω, fraction (fun w => ¬ (p ω w ↔ q ω w)) ≤ f ω) :
    |fraction (fun y : Ω × W => p y.1 y.2) - fraction (fun y : Ω × W => q y.1 y.2)| ≤ mean f := by
  have h1 : |fraction (fun y : Ω × W => p y.1 y.2) - fraction (fun y : Ω × W => q y.1 y.2)| ≤ fraction (fun y : Ω × W => ¬ (p y.1 y.2 ↔ q y.1 y.2)) :=
    fraction_diff fun _ hd => by rwa [not_not] at hd
  have h2 := fraction_mean (fun ω w => ¬ (p ω w ↔ q ω w)) f h
  exact le_trans h1 h2

theorem mean_fst {Ω W : Type} [Fintype Ω] [Fintype W] [Nonempty W] (f : Ω → ℚ) : mean (fun y : Ω × W => f y.1) = mean f := by
  have hc : (Fintype.card W : ℚ) ≠ 0 := by exact_mod_cast Fintype.card_ne_zero
  unfold mean
  rw [← Finset.univ_product_univ, Finset.sum_product, Fintype.card_prod, Nat.cast_mul]
  simp only [Finset.sum_const, Finset.card_univ, nsmul_eq_mul, ← Finset.mul_sum]
  rw [mul_comm, mul_div_mul_right _ _ hc]

theorem mean_equiv {Ω Ω' : Type} [Fintype Ω] [Fintype Ω'] (e : Ω ≃ Ω') (f : Ω' → ℚ) : mean (fun y => f (e y)) = mean f := by
  unfold mean
  rw [Fintype.card_congr e, Equiv.sum_comp e f]

theorem mean_lin {Ω : Type} [Fintype Ω] (a b : ℚ) (f g : Ω → ℚ) : mean (fun y => a * f y + b * g y) = a * mean f + b * mean g := by
  unfold mean
  rw [Finset.sum_add_distrib, ← Finset.mul_sum, ← Finset.mul_sum]
  ring

section
variable {E B C : Type} [Fintype E] [Nonempty E] [Fintype B] [DecidableEq B] [Nonempty B] [DecidableEq C]

/-- All parts of the game. -/
structure Game (E B C : Type) where
  e0 : B
  x : E → B × B
  enc : E → B → C
  hash : C → B
  dq : E → C → B × B
  ok : E → B × B → B × B → C → Bool
  att : E → C → B → Cca (B × B) (B × B) (B × B) B C Bool

variable (g : Game E B C)

/-- The ciphertext. -/
def Game.c (e : E) (G : B × B → B × B) : C := g.enc e (G (g.x e)).2

/-- The attacker with decapsulation, where `rej` gives the secrets of rejected ciphertexts. -/
def Game.real (e : E) (rej : B → B) (F : B × B → B) (G : B × B → B × B) (b : B) : Prop :=
  (g.att e (g.c e G) b).run G F (DG (g.c e G) g.e0 (g.dq e) (g.ok e) (fun v c => F (v.1, g.hash c)) (fun c => rej (g.hash c)) G) = true

/-- The attacker with decapsulation from the questions. -/
def Game.sim (e : E) (rej : B → B) (F : B × B → B) (G : B × B → B × B) (b : B) : Prop :=
  ((g.att e (g.c e G) b).sim F (DS (g.c e G) g.e0 (g.ok e) (fun v c => F (v.1, g.hash c)) (fun c => rej (g.hash c))) []).run G = true

/-- Decapsulation as an algorithm that asks the second function. -/
def Game.dF (e : E) (G : B × B → B × B) (rej : B → B) (c : C) : Alg (B × B) B B :=
  if c = g.c e G then .ret g.e0 else if g.ok e (g.dq e c) (G (g.dq e c)) c = true then .ask ((G (g.dq e c)).1, g.hash c) .ret else .ret (rej (g.hash c))

omit [Fintype E] [Nonempty E] [Fintype B] [DecidableEq B] [Nonempty B] in
theorem Game.dF_atMost (e : E) (G : B × B → B × B) (rej : B → B) (c : C) : (g.dF e G rej c).AtMost 1 := by
  intro f
  unfold Game.dF
  split
  · exact Nat.zero_le _
  · split
    · exact Nat.le_refl _
    · exact Nat.zero_le _

omit [Fintype E] [Nonempty E] [Fintype B] [DecidableEq B] [Nonempty B] in
theorem Game.dF_run (e : E) (G : B × B → B × B) (rej : B → B) (F : B × B → B) (c : C) : (g.dF e G rej c).run F =
    DG (g.c e G) g.e0 (g.dq e) (g.ok e) (fun v c => F (v.1, g.hash c)) (fun c => rej (g.hash c)) G c := by
  unfold Game.dF DG
  split
  · rfl
  · split <;> rfl

omit [Fintype E] [Nonempty E] [Fintype B] [DecidableEq B] [Nonempty B] in
theorem Game.real_viaF (e : E) (rej : B → B) (F : B × B → B) (G : B × B → B × B) (b : B) :
    g.real e rej F G b ↔ (viaF G (g.dF e G rej) (g.att e (g.c e G) b)).run F = true := by
  rw [run_viaF, Game.real]
  simp only [Game.dF_run]

variable (qG qF qD : Nat) (hA : ∀ e c b, (g.att e c b).AtMost qG qF qD)
include hA

/-- The second function asked with the secret string, and a third function. -/
theorem z_real :
    |fraction (fun d : E × B × (B × B → B) × (B × B → B × B) => g.real d.1 (fun y => d.2.2.1 (d.2.1, y)) d.2.2.1 d.2.2.2 (d.2.2.1 ((d.2.2.2 (g.x d.1)).1, g.hash (g.c d.1 d.2.2.2)))) -
      fraction (fun d : ((E × (B × B → B)) × (B → B)) × (B × B → B × B) => g.real d.1.1.1 d.1.2 d.1.1.2 d.2 (d.1.1.2 ((d.2 (g.x d.1.1.1)).1, g.hash (g.c d.1.1.1 d.2))))| ≤
      ((qF + qD + 1 : Nat) : ℚ) / Fintype.card B := by
  let e1 : E × B × (B × B → B) × (B × B → B × B) ≃ (E × (B × B → B × B)) × B × (B × B → B) := {
    toFun d := ((d.1, d.2.2.2), d.2.1, d.2.2.1)
    invFun y := (y.1.1, y.2.1, y.2.2, y.1.2)
    left_inv d := rfl
    right_inv y := rfl }
  let e2 : ((E × (B × B → B)) × (B → B)) × (B × B → B × B) ≃ (E × (B × B → B × B)) × (B → B) × (B × B → B) := {
    toFun d := ((d.1.1.1, d.2), d.1.2, d.1.1.2)
    invFun y := (((y.1.1, y.2.2), y.2.1), y.1.2)
    left_inv d := rfl
    right_inv y := rfl }
  have h := z_step (E := E × (B × B → B × B)) (K := B) (Y := B) (B := B) (fun e z F => g.real e.1 (fun y => F (z, y)) F e.2 (F ((e.2 (g.x e.1)).1, g.hash (g.c e.1 e.2))))
    (fun e J => .ask ((e.2 (g.x e.1)).1, g.hash (g.c e.1 e.2)) fun b => viaF e.2 (g.dF e.1 e.2 J) (g.att e.1 (g.c e.1 e.2) b))
    (fun e z F J => by
      rw [Game.real_viaF, show (fun y => patch F z J (z, y)) = J from funext fun y => if_pos rfl]
      exact Iff.rfl)
    (qF + qD + 1) fun e J f => by
      have := atMost_viaF e.2 (g.dF e.1 e.2 J) (g.dF_atMost e.1 e.2 J) (g.att e.1 (g.c e.1 e.2) (f ((e.2 (g.x e.1)).1, g.hash (g.c e.1 e.2)))) qG qF qD (hA _ _ _) f
      exact Nat.succ_le_succ this
  rw [← fraction_equiv e1, ← fraction_equiv e2] at h
  refine le_of_eq_of_le (congrArg abs (congrArg₂ (· - ·) rfl (fraction_congr fun d => ?_))) h
  rw [Game.real_viaF]
  exact Iff.rfl

theorem z_other :
    |fraction (fun d : (E × B × (B × B → B) × (B × B → B × B)) × B => g.real d.1.1 (fun y => d.1.2.2.1 (d.1.2.1, y)) d.1.2.2.1 d.1.2.2.2 d.2) -
      fraction (fun d : (E × (B × B → B × B) × (B → B)) × (B × B → B) × B => g.real d.1.1 d.1.2.2 d.2.1 d.1.2.1 d.2.2)| ≤
      ((qF + qD : Nat) : ℚ) / Fintype.card B := by
  let e1 : (E × B × (B × B → B) × (B × B → B × B)) × B ≃ (E × (B × B → B × B) × B) × B × (B × B → B) := {
    toFun d := ((d.1.1, d.1.2.2.2, d.2), d.1.2.1, d.1.2.2.1)
    invFun y := ((y.1.1, y.2.1, y.2.2, y.1.2.1), y.1.2.2)
    left_inv d := rfl
    right_inv y := rfl }
  let e2 : (E × (B × B → B × B) × (B → B)) × (B × B → B) × B ≃ (E × (B × B → B × B) × B) × (B → B) × (B × B → B) := {
    toFun d := ((d.1.1, d.1.2.1, d.2.2), d.1.2.2, d.2.1)
    invFun y := ((y.1.1, y.1.2.1, y.2.1), y.2.2, y.1.2.2)
    left_inv d := rfl
    right_inv y := rfl }
  have h := z_step (E := E × (B × B → B × B) × B) (K := B) (Y := B) (B := B) (fun e z F => g.real e.1 (fun y => F (z, y)) F e.2.1 e.2.2)
    (fun e J => viaF e.2.1 (g.dF e.1 e.2.1 J) (g.att e.1 (g.c e.1 e.2.1) e.2.2))
    (fun e z F J => by
      rw [Game.real_viaF, show (fun y => patch F z J (z, y)) = J from funext fun y => if_pos rfl])
    (qF + qD) fun e J => atMost_viaF _ _ (g.dF_atMost e.1 e.2.1 J) _ qG qF qD (hA _ _ _)
  rw [← fraction_equiv e1, ← fraction_equiv e2] at h
  refine le_of_eq_of_le (congrArg abs (congrArg₂ (· - ·) rfl (fraction_congr fun d => ?_))) h
  rw [Game.real_viaF]
  exact Iff.rfl

/-- The secret of a random first key. -/
theorem k_real :
    |fraction (fun d : (((E × (B × B → B)) × (B → B)) × (B × B → B × B)) × B => g.real d.1.1.1.1 d.1.1.2 d.1.1.1.2 d.1.2 (d.1.1.1.2 (d.2, g.hash (g.c d.1.1.1.1 d.1.2)))) -
      fraction (fun d : (E × (B × B → B × B) × (B → B)) × (B × B → B) × B => g.real d.1.1 d.1.2.2 d.2.1 d.1.2.1 d.2.2)| ≤
      ((qF + qD : Nat) : ℚ) / Fintype.card B := by
  let e1 : (((E × (B × B → B)) × (B → B)) × (B × B → B × B)) × B ≃ ((E × (B × B → B × B) × (B → B)) × B) × (B × B → B) := {
    toFun d := (((d.1.1.1.1, d.1.2, d.1.1.2), d.2), d.1.1.1.2)
    invFun y := ((((y.1.1.1, y.2), y.1.1.2.2), y.1.1.2.1), y.1.2)
    left_inv d := rfl
    right_inv y := rfl }
  have h := k_step (E := E × (B × B → B × B) × (B → B)) (K := B) (Y := B) (B := B) (fun e => g.hash (g.c e.1 e.2.1))
    (fun e b => viaF e.2.1 (g.dF e.1 e.2.1 e.2.2) (g.att e.1 (g.c e.1 e.2.1) b)) (qF + qD)
    fun e b => atMost_viaF _ _ (g.dF_atMost e.1 e.2.1 e.2.2) _ qG qF qD (hA _ _ _)
  rw [← fraction_equiv e1] at h
  refine le_of_eq_of_le (congrArg abs (congrArg₂ (· - ·) (fraction_congr fun d => ?_) (fraction_congr fun d => ?_))) h
  · rw [Game.real_viaF]
    exact Iff.rfl
  · rw [Game.real_viaF]

variable (hok : ∀ e v c, g.ok e (g.x e) v c = true → c = g.enc e v.2) (δ γ : E → ℚ)
  (hδ : ∀ e x, fraction (fun v => ∃ c, g.ok e x v c = true ∧ g.dq e c ≠ x) ≤ δ e) (hγ : ∀ e x c, fraction (fun v => g.ok e x v c = true) ≤ γ e)
include hok hδ hγ

omit [Fintype E] [Nonempty E] in
/-- With and without the secret key. -/
theorem sim_one (e : E) (rej : B → B) (F : B × B → B) (b : C → B × B → B) :
    fraction (fun G : B × B → B × B => ¬ (g.real e rej F G (b (g.c e G) (G (g.x e))) ↔ g.sim e rej F G (b (g.c e G) (G (g.x e))))) ≤ qG * δ e + qD * γ e := by
  have δ0 : 0 ≤ δ e := (fraction_nonneg _).trans (hδ e (g.x e))
  have γ0 : 0 ≤ γ e := (fraction_nonneg _).trans (hγ e (g.x e) (g.enc e g.e0))
  rw [fraction_update1 (g.x e) fun G v => ¬ (g.real e rej F G (b (g.c e G) v) ↔ g.sim e rej F G (b (g.c e G) v))]
  have h0 : (0 : ℚ) ≤ qG * δ e + qD * γ e := by positivity
  refine le_of_eq_of_le (fraction_equiv (Equiv.prodComm _ _) fun y => ¬ (g.real e rej F (Function.update y.2 (g.x e) y.1) (b (g.c e (Function.update y.2 (g.x e) y.1)) y.1) ↔
    g.sim e rej F (Function.update y.2 (g.x e) y.1) (b (g.c e (Function.update y.2 (g.x e) y.1)) y.1))) ?_
  refine fraction_hit (fun v G => ¬ (g.real e rej F (Function.update G (g.x e) v) (b (g.c e (Function.update G (g.x e) v)) v) ↔
    g.sim e rej F (Function.update G (g.x e) v) (b (g.c e (Function.update G (g.x e) v)) v))) _ fun v => ?_
  have ho (G : B × B → B × B) : over [g.x e] (fun _ => v) G = Function.update G (g.x e) v := by
    funext y
    unfold over
    by_cases hy : y = g.x e
    · subst hy
      rw [if_pos (List.mem_singleton.mpr rfl), Function.update_self]
    · rw [if_neg (fun h => hy (List.mem_singleton.mp h)), Function.update_of_ne hy]
  have hc (G : B × B → B × B) : g.c e (Function.update G (g.x e) v) = g.enc e v.2 := by rw [Game.c, Function.update_self]
  have ht := tree F (g.enc e v.2) g.e0 (g.dq e) (g.ok e) (fun v c => F (v.1, g.hash c)) (fun c => rej (g.hash c)) (δ e) (γ e) (hδ e) (hγ e) (g.x e)
    (g.att e (g.enc e v.2) (b (g.enc e v.2) v)) qG qF qD (hA _ _ _) [g.x e] (fun _ => v) [] (List.mem_singleton.mpr rfl) (fun c h => hok e v c h)
    (fun p hp => absurd hp List.not_mem_nil) fun x hx => .inl (List.mem_singleton.mp hx)
  refine (fraction_mono fun G hG => ?_).trans ht
  rw [ho]
  intro heq
  refine hG ?_
  unfold Game.real Game.sim
  rw [hc, heq]

theorem sim_real :
    |fraction (fun d : ((E × (B × B → B)) × (B → B)) × (B × B → B × B) => g.real d.1.1.1 d.1.2 d.1.1.2 d.2 (d.1.1.2 ((d.2 (g.x d.1.1.1)).1, g.hash (g.c d.1.1.1 d.2)))) -
      fraction (fun d : ((E × (B × B → B)) × (B → B)) × (B × B → B × B) => g.sim d.1.1.1 d.1.2 d.1.1.2 d.2 (d.1.1.2 ((d.2 (g.x d.1.1.1)).1, g.hash (g.c d.1.1.1 d.2))))| ≤
      qG * mean δ + qD * mean γ := by
  refine le_of_le_of_eq (mean_diff (fun (d : (E × (B × B → B)) × (B → B)) (G : B × B → B × B) => g.real d.1.1 d.2 d.1.2 G (d.1.2 ((G (g.x d.1.1)).1, g.hash (g.c d.1.1 G))))
    (fun d G => g.sim d.1.1 d.2 d.1.2 G (d.1.2 ((G (g.x d.1.1)).1, g.hash (g.c d.1.1 G)))) (fun d => qG * δ d.1.1 + qD * γ d.1.1)
    fun d => sim_one g qG qF qD hA hok δ γ hδ hγ d.1.1 d.2 d.1.2 fun c v => d.1.2 (v.1, g.hash c)) ?_
  rw [mean_fst (fun d : E × (B × B → B) => qG * δ d.1 + qD * γ d.1), mean_fst (fun d : E => qG * δ d + qD * γ d), mean_lin]

theorem sim_other :
    |fraction (fun d : (((E × (B × B → B)) × (B → B)) × (B × B → B × B)) × B => g.real d.1.1.1.1 d.1.1.2 d.1.1.1.2 d.1.2 (d.1.1.1.2 (d.2, g.hash (g.c d.1.1.1.1 d.1.2)))) -
      fraction (fun d : (((E × (B × B → B)) × (B → B)) × (B × B → B × B)) × B => g.sim d.1.1.1.1 d.1.1.2 d.1.1.1.2 d.1.2 (d.1.1.1.2 (d.2, g.hash (g.c d.1.1.1.1 d.1.2))))| ≤
      qG * mean δ + qD * mean γ := by
  let e1 : (((E × (B × B → B)) × (B → B)) × (B × B → B × B)) × B ≃ (((E × (B × B → B)) × (B → B)) × B) × (B × B → B × B) := {
    toFun d := ((d.1.1, d.2), d.1.2)
    invFun y := ((y.1.1, y.2), y.1.2)
    left_inv d := rfl
    right_inv y := rfl }
  have h := mean_diff (fun (d : ((E × (B × B → B)) × (B → B)) × B) (G : B × B → B × B) => g.real d.1.1.1 d.1.2 d.1.1.2 G (d.1.1.2 (d.2, g.hash (g.c d.1.1.1 G))))
    (fun d G => g.sim d.1.1.1 d.1.2 d.1.1.2 G (d.1.1.2 (d.2, g.hash (g.c d.1.1.1 G)))) (fun d => qG * δ d.1.1.1 + qD * γ d.1.1.1)
    fun d => sim_one g qG qF qD hA hok δ γ hδ hγ d.1.1.1 d.1.2 d.1.1.2 fun c _ => d.1.1.2 (d.2, g.hash c)
  rw [← fraction_equiv e1, ← fraction_equiv e1] at h
  refine le_of_le_of_eq h ?_
  rw [mean_fst (fun d : (E × (B × B → B)) × (B → B) => qG * δ d.1.1 + qD * γ d.1.1), mean_fst (fun d : E × (B × B → B) => qG * δ d.1 + qD * γ d.1),
    mean_fst (fun d : E => qG * δ d + qD * γ d), mean_lin]

/-- All steps but that with the random first key. -/
theorem game_bound (m : ℚ)
    (hm : |fraction (fun d : ((E × (B × B → B)) × (B → B)) × (B × B → B × B) => g.sim d.1.1.1 d.1.2 d.1.1.2 d.2 (d.1.1.2 ((d.2 (g.x d.1.1.1)).1, g.hash (g.c d.1.1.1 d.2)))) -
      fraction (fun d : (((E × (B × B → B)) × (B → B)) × (B × B → B × B)) × B =>
        g.sim d.1.1.1.1 d.1.1.2 d.1.1.1.2 d.1.2 (d.1.1.1.2 (d.2, g.hash (g.c d.1.1.1.1 d.1.2))))| ≤ m) :
    |fraction (fun d : E × B × (B × B → B) × (B × B → B × B) => g.real d.1 (fun y => d.2.2.1 (d.2.1, y)) d.2.2.1 d.2.2.2 (d.2.2.1 ((d.2.2.2 (g.x d.1)).1, g.hash (g.c d.1 d.2.2.2)))) -
      fraction (fun d : (E × B × (B × B → B) × (B × B → B × B)) × B => g.real d.1.1 (fun y => d.1.2.2.1 (d.1.2.1, y)) d.1.2.2.1 d.1.2.2.2 d.2)| ≤
      m + 2 * (qG * mean δ + qD * mean γ) + (3 * (qF + qD) + 1) / Fintype.card B := by
  have h1 := z_real g qG qF qD hA
  have h2 := sim_real g qG qF qD hA hok δ γ hδ hγ
  have h3 := sim_other g qG qF qD hA hok δ γ hδ hγ
  have h4 := k_real g qG qF qD hA
  have h5 := z_other g qG qF qD hA
  have e1 : ((qF + qD + 1 : Nat) : ℚ) / Fintype.card B = (qF + qD) / Fintype.card B + 1 / Fintype.card B := by push_cast; rw [add_div]
  have e2 : ((qF + qD : Nat) : ℚ) / Fintype.card B = (qF + qD) / Fintype.card B := by push_cast; rfl
  have e3 : (3 * (qF + qD) + 1 : ℚ) / Fintype.card B = 3 * ((qF + qD) / Fintype.card B) + 1 / Fintype.card B := by rw [add_div, mul_div_assoc]
  rw [e1] at h1
  rw [e2] at h4 h5
  rw [e3]
  generalize ((qF + qD) / Fintype.card B : ℚ) = t at *
  generalize (1 / Fintype.card B : ℚ) = t1 at *
  rw [abs_le] at *
  constructor <;> linarith [h1.1, h1.2, h2.1, h2.2, h3.1, h3.2, h4.1, h4.2, h5.1, h5.2, hm.1, hm.2]

end

/-! ### The scheme -/

theorem le_maxOver {α : Type} [Fintype α] [Nonempty α] (f : α → ℚ) (x : α) : f x ≤ maxOver f := Finset.le_sup' f (Finset.mem_univ x)

theorem fraction_snd {Ω Ω' : Type} [Fintype Ω] [Nonempty Ω] [Fintype Ω'] (p : Ω' → Prop) : fraction (fun y : Ω × Ω' => p y.2) = fraction p :=
  (fraction_equiv (Equiv.prodComm Ω Ω') fun y => p y.1).trans (fraction_fst p)

theorem fraction_none {Ω : Type} [Fintype Ω] (p : Ω → Prop) (h : ∀ ω, ¬ p ω) : fraction p = 0 := by
  classical
  unfold fraction
  rw [show count p = 0 by rw [count_eq, Finset.card_eq_zero, Finset.filter_eq_empty_iff]; exact fun u _ => h u, Nat.cast_zero, zero_div]

theorem mean_mid {Ω B : Type} [Fintype Ω] [Nonempty Ω] [Fintype B] [Nonempty B] (f : B → B → ℚ) :
    mean (fun e : Ω × B × B × B => f e.2.1 e.2.2.1) = mean (fun r : B × B => f r.1 r.2) := by
  let e1 : Ω × B × B × B ≃ (B × B) × Ω × B := {
    toFun d := ((d.2.1, d.2.2.1), d.1, d.2.2.2)
    invFun y := (y.2.1, y.1.1, y.1.2, y.2.2)
    left_inv d := rfl
    right_inv y := rfl }
  exact (mean_equiv e1 fun y => f y.1.1 y.1.2).trans (mean_fst fun r : B × B => f r.1 r.2)

theorem perm2 {Ω F J K G : Type} [Fintype Ω] [Fintype F] [Fintype J] [Fintype K] [Fintype G] (P : Ω → F → J → K → G → Prop) :
    fraction (fun d : (((Ω × K) × F) × J) × G => P d.1.1.1.1 d.1.1.2 d.1.2 d.1.1.1.2 d.2) =
    fraction (fun d : ((Ω × F × J) × K) × G => P d.1.1.1 d.1.1.2.1 d.1.1.2.2 d.1.2 d.2) := by
  let e1 : (((Ω × K) × F) × J) × G ≃ ((Ω × F × J) × K) × G := {
    toFun d := (((d.1.1.1.1, d.1.1.2, d.1.2), d.1.1.1.2), d.2)
    invFun d := ((((d.1.1.1, d.1.2), d.1.1.2.1), d.1.1.2.2), d.2)
    left_inv d := rfl
    right_inv y := rfl }
  exact fraction_equiv e1 fun d => P d.1.1.1 d.1.1.2.1 d.1.1.2.2 d.1.2 d.2

theorem perm3 {Ω F J K G B : Type} [Fintype Ω] [Fintype F] [Fintype J] [Fintype K] [Fintype G] [Fintype B] (P : Ω → F → J → K → G → B → Prop) :
    fraction (fun d : ((((Ω × K) × F) × J) × G) × B => P d.1.1.1.1.1 d.1.1.1.2 d.1.1.2 d.1.1.1.1.2 d.1.2 d.2) =
    fraction (fun d : (((Ω × F × J) × K) × G) × B => P d.1.1.1.1 d.1.1.1.2.1 d.1.1.1.2.2 d.1.1.2 d.1.2 d.2) := by
  let e1 : ((((Ω × K) × F) × J) × G) × B ≃ (((Ω × F × J) × K) × G) × B := {
    toFun d := ((((d.1.1.1.1.1, d.1.1.1.2, d.1.1.2), d.1.1.1.1.2), d.1.2), d.2)
    invFun d := (((((d.1.1.1.1, d.1.1.2), d.1.1.1.2.1), d.1.1.1.2.2), d.1.2), d.2)
    left_inv d := rfl
    right_inv y := rfl }
  exact fraction_equiv e1 fun d => P d.1.1.1.1 d.1.1.1.2.1 d.1.1.1.2.2 d.1.1.2 d.1.2 d.2

def gameOf (S : Pke) (dec : Bytes 32 → List Byte → Bytes 32) (h : List Byte → Bytes 32) {Ω : Type} (A : CcaAttacker Ω) :
    Game (Ω × Bytes 32 × Bytes 32 × Bytes 32) (Bytes 32) (List Byte) where
  e0 := fun _ => 0
  x e := (h (List.ofFn e.2.2.2), h (S.realKey e.2.1 e.2.2.1))
  enc e k := S.enc (List.ofFn (h (List.ofFn e.2.2.2))) (List.ofFn k) (S.realKey e.2.1 e.2.2.1)
  hash := h
  dq e c := (dec e.2.2.1 c, h (S.realKey e.2.1 e.2.2.1))
  ok e x v c := decide (x.2 = h (S.realKey e.2.1 e.2.2.1)) && decide (S.enc (List.ofFn x.1) (List.ofFn v.2) (S.realKey e.2.1 e.2.2.1) = c)
  att e c b := A e.1 (S.realKey e.2.1 e.2.2.1) c b

section
variable (S : Pke) (dec : Bytes 32 → List Byte → Bytes 32) (h : List Byte → Bytes 32) {Ω : Type} (A : CcaAttacker Ω)

theorem answer_eq (e : Ω × Bytes 32 × Bytes 32 × Bytes 32) (z : Bytes 32) (F : Pair32 → Bytes 32) (G : Pair32 → Pair32) (c' : List Byte) :
    answer S h G F (S.realKey e.2.1 e.2.2.1) (dec e.2.2.1) z c' =
      DG c' (gameOf S dec h A).e0 ((gameOf S dec h A).dq e) ((gameOf S dec h A).ok e) (fun v c => F (v.1, (gameOf S dec h A).hash c))
        (fun c => (fun y => F (z, y)) ((gameOf S dec h A).hash c)) G := by
  funext c
  simp only [answer, DG, decapsWith, gameOf, decide_true, Bool.true_and, decide_eq_true_eq]

theorem ccaReal_iff (w : World Ω) : ccaReal S dec h A w ↔
    (gameOf S dec h A).real w.1 (fun y => w.2.2.1 (w.2.1, y)) w.2.2.1 w.2.2.2
      (w.2.2.1 ((w.2.2.2 ((gameOf S dec h A).x w.1)).1, (gameOf S dec h A).hash ((gameOf S dec h A).c w.1 w.2.2.2))) := by
  obtain ⟨⟨ω, r1, r2, u⟩, z, F, G⟩ := w
  unfold Game.real ccaReal
  rw [← answer_eq S dec h A (ω, r1, r2, u) z F G]
  exact Iff.rfl

theorem ccaOther_iff (w : World Ω) (k : Bytes 32) : ccaOther S dec h A w k ↔
    (gameOf S dec h A).real w.1 (fun y => w.2.2.1 (w.2.1, y)) w.2.2.1 w.2.2.2 k := by
  obtain ⟨⟨ω, r1, r2, u⟩, z, F, G⟩ := w
  unfold Game.real ccaOther
  rw [← answer_eq S dec h A (ω, r1, r2, u) z F G]
  exact Iff.rfl

theorem simAnswer_eq (e : Ω × Bytes 32 × Bytes 32 × Bytes 32) (F : Pair32 → Bytes 32) (J : Bytes 32 → Bytes 32) (c' : List Byte) :
    simAnswer S h F J (S.realKey e.2.1 e.2.2.1) c' =
      DS c' (gameOf S dec h A).e0 ((gameOf S dec h A).ok e) (fun v c => F (v.1, (gameOf S dec h A).hash c)) (fun c => J ((gameOf S dec h A).hash c)) := by
  funext log c
  unfold simAnswer DS
  split
  · rfl
  · have e1 : (fun p : Pair32 × Pair32 => decide (p.1.2 = h (S.realKey e.2.1 e.2.2.1)) && decide (S.enc (List.ofFn p.1.1) (List.ofFn p.2.2) (S.realKey e.2.1 e.2.2.1) = c)) =
        fun p => (gameOf S dec h A).ok e p.1 p.2 c := rfl
    rw [e1]
    cases log.find? fun p => (gameOf S dec h A).ok e p.1 p.2 c <;> rfl

theorem sim_iff (ω : Ω) (F : Pair32 → Bytes 32) (J : Bytes 32 → Bytes 32) (r : Bytes 32 × Bytes 32 × Bytes 32) (G : Pair32 → Pair32) (k : Bytes 32) :
    (gameOf S dec h A).sim (ω, r) J F G (F (k, (gameOf S dec h A).hash ((gameOf S dec h A).c (ω, r) G))) ↔
      seesOther S h (simEavesdropper S h A) (ω, F, J) r.1 r.2.1 r.2.2 G k := by
  unfold Game.sim
  rw [← simAnswer_eq S dec h A (ω, r) F J]
  exact Iff.rfl

theorem cca_bound (hq : S.eq = 12 ∨ S.eq = 13) (hT : S.eT ≤ 7) (γ : ℚ) (hγ : ∀ w, fraction (fun u : Bytes 32 => h (List.ofFn u) = w) ≤ γ) [Fintype Ω] [Nonempty Ω]
    (qG qF qD : Nat) (q0 : 0 < qG) (hA : ∀ ω pk c k, (A ω pk c k).AtMost qG qF qD) :
    |fraction (fun w : World Ω => ccaReal S dec h A w) - fraction (fun w : World Ω × Bytes 32 => ccaOther S dec h A w.1 w.2)| ≤
      2 * qG * (γ + 2 * (keyAdvantage S (keyAttack S (recoverAttacker (fun u => List.ofFn (h (List.ofFn u))) (questionOf (simEavesdropper S h A) qG))) +
        encAdvantage S (encAttack S (recoverAttacker (fun u => List.ofFn (h (List.ofFn u))) (questionOf (simEavesdropper S h A) qG))))) +
      2 * (qG * mean (fun r : Pair32 => failureOf S dec r.1 r.2) + qD * mean (fun r : Pair32 => repeatOf S r.1 r.2)) +
      (3 * (qF + qD) + 1) / 2 ^ 256 := by
  have h1 := eaves_bound S hq hT h γ hγ (simEavesdropper S h A) qG q0 fun ω pk c k => sim_atMost _ _ _ qG qF qD (hA _ _ _ _) _
  have h2 := game_bound (gameOf S dec h A) qG qF qD (fun e c b => hA _ _ _ _)
    (fun e v c hc => by
      simp only [gameOf, decide_true, Bool.true_and, decide_eq_true_eq] at hc
      exact hc.symm)
    (fun e => failureOf S dec e.2.1 e.2.2.1) (fun e => repeatOf S e.2.1 e.2.2.1)
    (fun e x => by
      refine le_trans (fraction_mono (q := fun v : Pair32 => dec e.2.2.1 (S.enc (List.ofFn x.1) (List.ofFn v.2) (S.realKey e.2.1 e.2.2.1)) ≠ x.1) ?_)
        (le_of_eq_of_le (fraction_snd fun k : Bytes 32 => dec e.2.2.1 (S.enc (List.ofFn x.1) (List.ofFn k) (S.realKey e.2.1 e.2.2.1)) ≠ x.1) (le_maxOver _ x.1))
      rintro v ⟨c, hc, hd⟩ heq
      simp only [gameOf, Bool.and_eq_true, decide_eq_true_eq] at hc
      obtain ⟨hc1, rfl⟩ := hc
      exact hd (Prod.ext heq hc1.symm))
    (fun e x c => by
      by_cases hx : ∃ k : Bytes 32, S.enc (List.ofFn x.1) (List.ofFn k) (S.realKey e.2.1 e.2.2.1) = c
      · obtain ⟨k, rfl⟩ := hx
        refine le_trans (fraction_mono (q := fun v : Pair32 => S.enc (List.ofFn x.1) (List.ofFn v.2) (S.realKey e.2.1 e.2.2.1) =
          S.enc (List.ofFn x.1) (List.ofFn k) (S.realKey e.2.1 e.2.2.1)) ?_)
          (le_of_eq_of_le (fraction_snd fun y : Bytes 32 => S.enc (List.ofFn x.1) (List.ofFn y) (S.realKey e.2.1 e.2.2.1) =
            S.enc (List.ofFn x.1) (List.ofFn k) (S.realKey e.2.1 e.2.2.1)) (le_maxOver _ (x.1, k)))
        intro v hv
        simp only [gameOf, Bool.and_eq_true, decide_eq_true_eq] at hv
        exact hv.2
      · refine le_of_eq_of_le (fraction_none _ fun v hv => ?_) ((fraction_nonneg _).trans (le_maxOver _ (x.1, fun _ => 0)))
        simp only [gameOf, Bool.and_eq_true, decide_eq_true_eq] at hv
        exact hx ⟨_, hv.2⟩)
    _ (le_of_eq_of_le (congrArg abs (congrArg₂ (· - ·)
      ((perm2 fun ω F J r G => (gameOf S dec h A).sim (ω, r) J F G
        (F ((G ((gameOf S dec h A).x (ω, r))).1, (gameOf S dec h A).hash ((gameOf S dec h A).c (ω, r) G)))).trans
        (fraction_congr fun d => sim_iff S dec h A _ _ _ _ _ _))
      ((perm3 fun ω F J r G k => (gameOf S dec h A).sim (ω, r) J F G (F (k, (gameOf S dec h A).hash ((gameOf S dec h A).c (ω, r) G)))).trans
        (fraction_congr fun d => sim_iff S dec h A _ _ _ _ _ _)))) h1)
  rw [mean_mid (fun r1 r2 => failureOf S dec r1 r2), mean_mid (fun r1 r2 => repeatOf S r1 r2), card_bytes] at h2
  refine le_of_eq_of_le (congrArg abs (congrArg₂ (· - ·) (fraction_congr fun w => ccaReal_iff S dec h A w) (fraction_congr fun w => ccaOther_iff S dec h A w.1 w.2)))
    (h2.trans (le_of_eq ?_))
  norm_num

end

end Saber.Ind

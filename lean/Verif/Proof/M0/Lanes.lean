import Verif.Model.M0.PolyMul
import Verif.Proof.PolyArr
/-!
# Loops that treat the lanes of an array independently
-/
namespace Saber.M0
open Saber

/-- `OkE E m P`: the result of `m` satisfies `P`, or `m` ends in an undefined behaviour of the kind `E`. -/
def OkE {α : Type} (E : UB → Prop) (m : CM α) (P : α → Prop) : Prop :=
  (∃ a, m = .ok a ∧ P a) ∨ ∃ e, m = .error e ∧ E e

theorem OkE.bind {α β : Type} {E : UB → Prop} {m : CM α} {f : α → CM β} {P : α → Prop} {Q : β → Prop}
    (h : OkE E m P) (hf : ∀ a, P a → OkE E (f a) Q) : OkE E (m >>= f) Q := by
  rcases h with ⟨a, rfl, ha⟩ | ⟨e, rfl, he⟩
  · exact hf a ha
  · exact .inr ⟨e, rfl, he⟩

theorem OkE.mono {α : Type} {E : UB → Prop} {m : CM α} {P Q : α → Prop} (h : OkE E m P) (hPQ : ∀ a, P a → Q a) : OkE E m Q := by
  rcases h with ⟨a, h, ha⟩ | h
  · exact .inl ⟨a, h, hPQ a ha⟩
  · exact .inr h

theorem OkE.of_ok {α : Type} {E : UB → Prop} {m : CM α} {P : α → Prop} (h : Ok m P) : OkE E m P := .inl h

theorem OkE.pure {α : Type} {E : UB → Prop} {a : α} {P : α → Prop} (h : P a) : OkE E (Pure.pure a) P := .inl ⟨a, rfl, h⟩

theorem OkE.to_ok {α : Type} {m : CM α} {P : α → Prop} (h : OkE (fun _ => False) m P) : Ok m P := by
  rcases h with h | ⟨e, _, h⟩
  · exact h
  · exact h.elim

theorem OkE.loop_inv {σ : Type} {E : UB → Prop} {n : Nat} {s : σ} {body : Nat → σ → CM σ} (I : Nat → σ → Prop)
    (h0 : I 0 s) (hs : ∀ i s, i < n → I i s → OkE E (body i s) (I (i + 1))) : OkE E (loop n s body) (I n) := by
  induction n with
  | zero => exact OkE.pure h0
  | succ n ih =>
    rw [loop_succ]
    exact (ih fun i s hi => hs i s (by omega)).bind fun a ha => hs n a (by omega) ha

/-- One step on lane `i`: the positions `o + (b + i)`, `b ∈ bs`, and `t[i]` change as given by `f` and `g`. -/
structure Step (o : Nat) (bs : List Nat) (i : Nat) (f : Nat → (Nat → R16) → R16) (g : (Nat → R16) → R16) (tw : Bool)
    (s s' : KM) : Prop where
  len : s'.d.length = s.d.length
  tlen : s'.t.length = s.t.length
  val : ∀ b ∈ bs, s'.d.getD (o + (b + i)) 0 = f b (fun b' => s.d.getD (o + (b' + i)) 0)
  rest : ∀ j, (∀ b ∈ bs, j ≠ o + (b + i)) → s'.d.getD j 0 = s.d.getD j 0
  tval : s'.t.getD i 0 = bif tw then g (fun b' => s.d.getD (o + (b' + i)) 0) else s.t.getD i 0
  trest : ∀ j, j ≠ i → s'.t.getD j 0 = s.t.getD j 0

/-- All lanes `i < n`. -/
structure Lanes (o : Nat) (bs : List Nat) (n : Nat) (f : Nat → Nat → (Nat → R16) → R16) (g : Nat → (Nat → R16) → R16) (tw : Bool)
    (s s' : KM) : Prop where
  len : s'.d.length = s.d.length
  tlen : s'.t.length = s.t.length
  val : ∀ b ∈ bs, ∀ i, i < n → s'.d.getD (o + (b + i)) 0 = f i b (fun b' => s.d.getD (o + (b' + i)) 0)
  rest : ∀ j, (∀ b ∈ bs, ∀ i, i < n → j ≠ o + (b + i)) → s'.d.getD j 0 = s.d.getD j 0
  tval : ∀ i, i < n → s'.t.getD i 0 = bif tw then g i (fun b' => s.d.getD (o + (b' + i)) 0) else s.t.getD i 0
  trest : ∀ j, n ≤ j → s'.t.getD j 0 = s.t.getD j 0

/-- The lanes that are read (`rs`) do not overlap with the ones written (`bs`), except at the same index. -/
def Disj (n : Nat) (rs bs : List Nat) : Prop := ∀ r ∈ rs, ∀ b ∈ bs, r = b ∨ r + n ≤ b ∨ b + n ≤ r

theorem lane_loop {o : Nat} {bs rs : List Nat} {n : Nat} {f : Nat → Nat → (Nat → R16) → R16} {g : Nat → (Nat → R16) → R16} {tw : Bool}
    {body : Nat → KM → CM KM} {s : KM}
    (hd : Disj n bs bs) (hr : Disj n rs bs)
    (hf : ∀ i b v v', (∀ r ∈ rs, v r = v' r) → f i b v = f i b v')
    (hg : ∀ i v v', (∀ r ∈ rs, v r = v' r) → g i v = g i v')
    (hb : ∀ i s', i < n → s'.d.length = s.d.length → s'.t.length = s.t.length →
      Ok (body i s') (Step o bs i (f i) (g i) tw s')) :
    Ok (loop n s body) (Lanes o bs n f g tw s) := by
  refine loop_inv (fun i s' => i ≤ n → Lanes o bs i f g tw s s') (fun _ => ⟨rfl, rfl, fun b _ i hi => by omega, fun j _ => rfl,
    fun i hi => by omega, fun j _ => rfl⟩) ?_ |>.mono fun a h => h (Nat.le_refl n)
  intro i s' hi IH
  have IH := IH (by omega)
  refine (hb i s' hi IH.len IH.tlen).mono fun s'' st hi' => ?_
  have same : ∀ r ∈ rs, s'.d.getD (o + (r + i)) 0 = s.d.getD (o + (r + i)) 0 := by
    intro r hr'
    refine IH.rest _ fun b hb' i' hi' e => ?_
    rcases hr r hr' b hb' with h | h | h <;> omega
  refine ⟨st.len.trans IH.len, st.tlen.trans IH.tlen, ?_, ?_, ?_, ?_⟩
  · intro b hb' i' hi''
    by_cases e : i' = i
    · subst e
      rw [st.val b hb']
      exact hf _ _ _ _ same
    · rw [st.rest, IH.val b hb' i' (by omega)]
      intro b2 hb2 e2
      rcases hd b hb' b2 hb2 with h | h | h <;> omega
  · intro j hj
    rw [st.rest j fun b hb' => hj b hb' i (by omega), IH.rest j fun b hb' i' hi' => hj b hb' i' (by omega)]
  · intro i' hi''
    by_cases e : i' = i
    · subst e
      rw [st.tval]
      cases tw with
      | false => exact IH.trest _ (Nat.le_refl _)
      | true => exact hg _ _ _ same
    · rw [st.trest _ e, IH.tval i' (by omega)]
  · intro j hj
    rw [st.trest _ (by omega), IH.trest j (by omega)]

end Saber.M0

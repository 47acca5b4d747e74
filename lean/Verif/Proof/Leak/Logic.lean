import Verif.Model.Leak.Ref
/-!
# Rules for the semantics with events

`E x y`: leaving out the events of `x` gives `y`.  `R2 x y Q`: if neither run has undefined behaviour, the runs cause the same
events and their results are related by `Q`.
-/
namespace Saber.Leak

/-- Leaving out the events of `x` gives `y`. -/
def E {α : Type} (x : LM α) (y : CM α) : Prop := x.out = y

/-- Runs without undefined behaviour cause the same events and have related results. -/
structure R2 {α β : Type} (x : LM α) (y : LM β) (Q : α → β → Prop) : Prop where
  /-- see above -/
  same : ∀ a b, x.out = .ok a → y.out = .ok b → x.trace = y.trace ∧ Q a b

/-- Same events, nothing about the results. -/
abbrev CT {α β : Type} (x : LM α) (y : LM β) : Prop := R2 x y fun _ _ => True

section
variable {α β γ δ : Type}

theorem bind_def (x : LM α) (f : α → LM β) : x >>= f = LM.bind x f := rfl

theorem pure_def (a : α) : (pure a : LM α) = ⟨[], .ok a⟩ := rfl

theorem E.bind {x : LM α} {y : CM α} {f : α → LM β} {g : α → CM β} (h : E x y) (h' : ∀ a, E (f a) (g a)) : E (x >>= f) (y >>= g) := by
  unfold E at *
  subst h
  rw [bind_def, LM.bind]
  cases hx : x.out with
  | ok a => exact h' a
  | error e => rfl

theorem E.pure (a : α) : E (pure a) (pure a) := rfl

theorem E.lift (x : CM α) : E (lift x) x := rfl

theorem E.branch (c : Bool) {f : Unit → LM β} {g : CM β} (h : E (f ()) g) : E (Leak.branch c >>= f) g := h

theorem E.rd (a : List α) (i : Nat) : E (rd a i) (Saber.rd a i) := rfl

theorem E.wr (a : List α) (i : Nat) (v : α) : E (wr a i v) (Saber.wr a i v) := rfl

theorem E.wrs (l : List α) : ∀ (a : List α) (i : Nat), E (wrs a i l) (Saber.wrs a i l) := by
  induction l with
  | nil => exact fun _ _ => rfl
  | cons v l ih => exact fun a i => E.bind (E.wr a i v) fun a' => ih a' (i + 1)

theorem E.loop {σ : Type} {b : Nat → σ → LM σ} {c : Nat → σ → CM σ} (h : ∀ i s, E (b i s) (c i s)) (n : Nat) (s : σ) :
    E (loop n s b) (Saber.loop n s c) := by
  induction n with
  | zero => rfl
  | succ n ih => exact E.bind ih fun s' => E.branch (f := fun _ => b n s') true (h n s')

theorem E.ite {c : Prop} [Decidable c] {x x' : LM α} {y y' : CM α} (h : E x y) (h' : E x' y') :
    E (if c then x else x') (if c then y else y') := by
  split
  · exact h
  · exact h'

theorem E.rdN {w : Nat} (a : List (BitVec w)) (i : Nat) : E (rdN a i) (Saber.rdN a i) := E.bind (E.rd a i) fun v => E.pure _
theorem E.addTo {w : Nat} (a : List (BitVec w)) (i : Nat) (v : BitVec w) : E (addTo a i v) (Saber.addTo a i v) :=
  E.bind (E.rd a i) fun _ => E.wr a i _
theorem E.memcpy (dst : List α) (doff : Nat) (src : List α) (soff n : Nat) :
    E (memcpy dst doff src soff n) (Saber.memcpy dst doff src soff n) :=
  E.loop (fun i dst => E.bind (E.rd src (soff + i)) fun v => E.wr dst (doff + i) v) n dst
theorem E.memset (dst : List α) (doff : Nat) (v : α) (n : Nat) : E (memset dst doff v n) (Saber.memset dst doff v n) :=
  E.loop (fun i dst => E.wr dst (doff + i) v) n dst
theorem E.iadd (a b : Int) : E (iadd a b) (Saber.iadd a b) := rfl
theorem E.isub (a b : Int) : E (isub a b) (Saber.isub a b) := rfl
theorem E.imul (a b : Int) : E (imul a b) (Saber.imul a b) := rfl
theorem E.ishl (a : Int) (k : Nat) : E (ishl a k) (Saber.ishl a k) := rfl
theorem E.random {σ : Type} (rb : RandomBytes σ) (buf : List Byte) (off n : Nat) (st : σ) : E (random rb buf off n st) (rb buf off n st) := rfl

theorem R2.mono {x : LM α} {y : LM β} {Q Q' : α → β → Prop} (h : R2 x y Q) (hQ : ∀ a b, Q a b → Q' a b) : R2 x y Q' :=
  ⟨fun a b ha hb => ⟨(h.same a b ha hb).1, hQ a b (h.same a b ha hb).2⟩⟩

theorem R2.bind {x : LM α} {y : LM β} {f : α → LM γ} {g : β → LM δ} {Q : α → β → Prop} {R : γ → δ → Prop} (h : R2 x y Q)
    (h' : ∀ a b, Q a b → R2 (f a) (g b) R) : R2 (x >>= f) (y >>= g) R := by
  refine ⟨fun c d hc hd => ?_⟩
  rw [bind_def, LM.bind] at hc hd ⊢
  rw [bind_def, LM.bind]
  cases hx : x.out with
  | error e => rw [hx] at hc; cases hc
  | ok a =>
    cases hy : y.out with
    | error e => rw [hy] at hd; cases hd
    | ok b =>
      rw [hx] at hc
      rw [hy] at hd
      have h1 := h.same a b hx hy
      have h2 := (h' a b h1.2).same c d hc hd
      exact ⟨by simp only [h1.1, h2.1], h2.2⟩

theorem R2.pure {a : α} {b : β} {Q : α → β → Prop} (h : Q a b) : R2 (pure a) (pure b) Q := by
  refine ⟨fun c d hc hd => ?_⟩
  cases hc
  cases hd
  exact ⟨rfl, h⟩

theorem CT.bind {x : LM α} {y : LM β} {f : α → LM γ} {g : β → LM δ} {R : γ → δ → Prop} (h : CT x y)
    (h' : ∀ a b, R2 (f a) (g b) R) : R2 (x >>= f) (y >>= g) R := R2.bind h fun a b _ => h' a b

theorem CT.pure (a : α) (b : β) : CT (pure a) (pure b) := R2.pure trivial

theorem CT.lift (x : CM α) (y : CM β) : CT (lift x) (lift y) := ⟨fun _ _ _ _ => ⟨rfl, trivial⟩⟩

theorem CT.branch (c : Bool) : CT (branch c) (branch c) := ⟨fun _ _ _ _ => ⟨rfl, trivial⟩⟩

theorem CT.rd (a : List α) (b : List β) (i : Nat) : CT (rd a i) (rd b i) := ⟨fun _ _ _ _ => ⟨rfl, trivial⟩⟩

theorem CT.wr (a : List α) (b : List β) (i : Nat) (v : α) (v' : β) : CT (wr a i v) (wr b i v') := ⟨fun _ _ _ _ => ⟨rfl, trivial⟩⟩

theorem CT.wrs (l : List α) (l' : List β) (h : l.length = l'.length) : ∀ (a : List α) (b : List β) (i : Nat), CT (wrs a i l) (wrs b i l') := by
  induction l generalizing l' with
  | nil =>
    cases l' with
    | nil => exact fun a b _ => CT.pure a b
    | cons _ _ => cases h
  | cons v l ih =>
    cases l' with
    | nil => cases h
    | cons v' l' => exact fun a b i => CT.bind (CT.wr a b i v v') fun a' b' => ih l' (Nat.succ.inj h) a' b' (i + 1)

theorem R2.loop {σ τ : Type} {I : Nat → σ → τ → Prop} {b : Nat → σ → LM σ} {c : Nat → τ → LM τ}
    (h : ∀ i s t, I i s t → R2 (b i s) (c i t) (I (i + 1))) (n : Nat) (s : σ) (t : τ) (h0 : I 0 s t) :
    R2 (loop n s b) (loop n t c) (I n) := by
  induction n with
  | zero => exact R2.pure h0
  | succ n ih =>
    exact R2.bind ih fun s' t' hI => CT.bind (x := (⟨[.iter], .ok ()⟩ : LM Unit)) (y := (⟨[.iter], .ok ()⟩ : LM Unit))
      ⟨fun _ _ _ _ => ⟨rfl, trivial⟩⟩ fun _ _ => h n s' t' hI

theorem CT.loop {σ τ : Type} {b : Nat → σ → LM σ} {c : Nat → τ → LM τ} (h : ∀ i s t, CT (b i s) (c i t)) (n : Nat) (s : σ) (t : τ) :
    CT (loop n s b) (loop n t c) := R2.loop (I := fun _ _ _ => True) (fun i s t _ => h i s t) n s t trivial

theorem R2.ite {c : Prop} [Decidable c] {x x' : LM α} {y y' : LM β} {Q : α → β → Prop} (h : R2 x y Q) (h' : R2 x' y' Q) :
    R2 (if c then x else x') (if c then y else y') Q := by
  split
  · exact h
  · exact h'

theorem CT.rdN {w : Nat} (a b : List (BitVec w)) (i : Nat) : CT (rdN a i) (rdN b i) := CT.bind (CT.rd a b i) fun _ _ => CT.pure _ _
theorem CT.addTo {w : Nat} (a b : List (BitVec w)) (i : Nat) (v v' : BitVec w) : CT (addTo a i v) (addTo b i v') :=
  CT.bind (CT.rd a b i) fun _ _ => CT.wr _ _ _ _ _
theorem CT.memcpy (dst dst' : List α) (doff : Nat) (src src' : List α) (soff n : Nat) :
    CT (memcpy dst doff src soff n) (memcpy dst' doff src' soff n) := by
  refine CT.loop (fun i _ _ => ?_) n dst dst'
  exact CT.bind (CT.rd _ _ _) fun _ _ => CT.wr _ _ _ _ _
theorem CT.memset (dst dst' : List α) (doff : Nat) (v v' : α) (n : Nat) : CT (memset dst doff v n) (memset dst' doff v' n) := by
  refine CT.loop (fun i _ _ => ?_) n dst dst'
  exact CT.wr _ _ _ _ _
theorem CT.iadd (a b a' b' : Int) : CT (iadd a b) (iadd a' b') := CT.lift _ _
theorem CT.isub (a b a' b' : Int) : CT (isub a b) (isub a' b') := CT.lift _ _
theorem CT.imul (a b a' b' : Int) : CT (imul a b) (imul a' b') := CT.lift _ _
theorem CT.ishl (a a' : Int) (k k' : Nat) : CT (ishl a k) (ishl a' k') := CT.lift _ _
theorem CT.random {σ τ : Type} (rb : RandomBytes σ) (rb' : RandomBytes τ) (buf buf' : List Byte) (off n : Nat) (st : σ) (st' : τ) :
    CT (random rb buf off n st) (random rb' buf' off n st') := ⟨fun _ _ _ _ => ⟨rfl, trivial⟩⟩

end

/-- One step of an erasure proof; extended after each function. -/
syntax "estep" : tactic
macro_rules | `(tactic| estep) => `(tactic| apply E.ite)
macro_rules | `(tactic| estep) => `(tactic| refine E.loop (fun _ _ => ?_) _ _)
macro_rules | `(tactic| estep) => `(tactic| rintro ⟨_, _, _, _⟩)
macro_rules | `(tactic| estep) => `(tactic| rintro ⟨_, _, _⟩)
macro_rules | `(tactic| estep) => `(tactic| rintro ⟨_, _⟩)
macro_rules | `(tactic| estep) => `(tactic| intro _)
macro_rules | `(tactic| estep) => `(tactic| with_reducible refine E.bind ?_ ?_)
macro_rules | `(tactic| estep) => `(tactic| with_reducible refine E.branch _ ?_)
macro_rules | `(tactic| estep) => `(tactic| with_reducible first
  | exact E.rd _ _ | exact E.wr _ _ _ | exact E.wrs _ _ _ | exact E.rdN _ _ | exact E.addTo _ _ _ | exact E.memcpy _ _ _ _ _
  | exact E.memset _ _ _ _ | exact E.iadd _ _ | exact E.isub _ _ | exact E.imul _ _ | exact E.ishl _ _ | exact E.random _ _ _ _ _
  | exact E.pure _)

/-- One step of a proof that events do not depend on data; extended after each function. -/
syntax "ctstep" : tactic
macro_rules | `(tactic| ctstep) => `(tactic| apply R2.ite)
macro_rules | `(tactic| ctstep) => `(tactic| refine CT.loop (fun _ _ _ => ?_) _ _ _)
macro_rules | `(tactic| ctstep) => `(tactic| rintro ⟨_, _, _, _⟩ ⟨_, _, _, _⟩)
macro_rules | `(tactic| ctstep) => `(tactic| rintro ⟨_, _, _⟩ ⟨_, _, _⟩)
macro_rules | `(tactic| ctstep) => `(tactic| rintro ⟨_, _⟩ ⟨_, _⟩)
macro_rules | `(tactic| ctstep) => `(tactic| intro _ _)
macro_rules | `(tactic| ctstep) => `(tactic| with_reducible refine CT.bind ?_ ?_)
macro_rules | `(tactic| ctstep) => `(tactic| with_reducible first
  | exact CT.rd _ _ _ | exact CT.wr _ _ _ _ _ | exact CT.rdN _ _ _ | exact CT.addTo _ _ _ _ _
  | exact CT.memcpy _ _ _ _ _ _ _ | exact CT.memset _ _ _ _ _ _ | exact CT.iadd _ _ _ _ | exact CT.isub _ _ _ _
  | exact CT.imul _ _ _ _ | exact CT.ishl _ _ _ _ | exact CT.random _ _ _ _ _ _ _ _ | exact CT.branch _ | exact CT.pure _ _)
macro_rules | `(tactic| ctstep) => `(tactic| (with_reducible refine CT.wrs _ _ ?_ _ _ _) <;> rfl)

end Saber.Leak

import Verif.Model.Avx.Machine
import Mathlib.Data.List.Forall2
/-!
# Symbolic execution of straight-line AVX2 code
-/
namespace Saber.Avx

/-- Symbolic vectors and the operations on them.  `force` is the identity; it controls the order of evaluation. -/
structure SDom where
  V : Type
  op2 : Op2 → V → V → V
  sll : V → Nat → V
  srl : V → Nat → V
  set1 : Nat → V
  force : {α : Type} → V → (V → α) → α

/-- `l[i]` -/
def getK {α : Type} : List α → Nat → Option α
  | [], _ => none
  | x :: _, 0 => some x
  | _ :: l, i + 1 => getK l i

/-- `l.set i v`, passed on to `k` -/
def setK {α β : Type} : List α → Nat → α → (List α → Option β) → Option β
  | [], _, _, _ => none
  | _ :: l, 0, v, k => k (v :: l)
  | x :: l, i + 1, v, k => setK l i v fun l => k (x :: l)

variable (D : SDom)

/-- Symbolic value of an expression. -/
def seval (vs : List D.V) (as : List (List D.V)) : Ex → Option D.V
  | .v x => getK vs x
  | .ix p i => match getK as p with
    | none => none
    | some a => getK a i
  | .set1 n => some (D.set1 n)
  | .op2 o a b => match seval vs as a with
    | none => none
    | some x => match seval vs as b with
      | none => none
      | some y => some (D.op2 o x y)
  | .slli a n => match seval vs as a with
    | none => none
    | some x => some (D.sll x n)
  | .srli a n => match seval vs as a with
    | none => none
    | some x => some (D.srl x n)

/-- Symbolic execution; returns the arrays. -/
def sexec : List Stmt → List D.V → List (List D.V) → Option (List (List D.V))
  | [], _, as => some as
  | t :: r, vs, as => match seval D vs as t.e with
    | none => none
    | some y => D.force y fun y => match t.l with
      | .v x => setK vs x y fun vs => sexec r vs as
      | .ix p i => match getK as p with
        | none => none
        | some a => setK a i y fun a => setK as p a fun as => sexec r vs as
      | _ => none

variable {D}

theorem getK_eq {α : Type} (l : List α) (i : Nat) : getK l i = l[i]? := by
  induction l generalizing i with
  | nil => simp [getK]
  | cons x l ih => cases i <;> simp [getK, ih]

theorem setK_eq {α β : Type} {l : List α} {i : Nat} {v : α} {k : List α → Option β} {b : β} (h : setK l i v k = some b) :
    i < l.length ∧ k (l.set i v) = some b := by
  induction l generalizing i k with
  | nil => cases h
  | cons x l ih =>
    cases i with
    | zero => exact ⟨by simp, h⟩
    | succ i =>
      have := ih h
      exact ⟨by simpa using this.1, this.2⟩

/-- A relation between vectors and symbolic vectors that the operations preserve. -/
structure Sim (D : SDom) where
  R : Vec → D.V → Prop
  op2 : ∀ o a b a' b', R a a' → R b b' → R (o.eval a b) (D.op2 o a' b')
  sll : ∀ a a' n, R a a' → R (fun l => a l <<< n) (D.sll a' n)
  srl : ∀ a a' n, R a a' → R (fun l => a l >>> n) (D.srl a' n)
  set1 : ∀ n, R (fun _ => BitVec.ofNat 16 n) (D.set1 n)
  force : ∀ {α : Type} (x : D.V) (k : D.V → α), D.force x k = k x

section
variable {α β : Type} {R : α → β → Prop}

theorem forall₂_get {l : List α} {l' : List β} (h : List.Forall₂ R l l') {i : Nat} {y : β} (hy : l'[i]? = some y) :
    ∃ x, rd l i = .ok x ∧ R x y := by
  induction h generalizing i with
  | nil => simp at hy
  | cons h t ih =>
    cases i with
    | zero =>
      simp only [List.getElem?_cons_zero, Option.some.injEq] at hy
      subst hy
      exact ⟨_, rfl, h⟩
    | succ i =>
      obtain ⟨x, hx, r⟩ := ih (by simpa using hy)
      exact ⟨x, by simpa [rd] using hx, r⟩

theorem forall₂_set {l : List α} {l' : List β} (h : List.Forall₂ R l l') (i : Nat) {x : α} {y : β} (hxy : R x y) :
    List.Forall₂ R (l.set i x) (l'.set i y) := by
  induction h generalizing i with
  | nil => exact .nil
  | cons h t ih =>
    cases i with
    | zero => exact .cons hxy t
    | succ i => exact .cons h (ih i)

theorem forall₂_length {l : List α} {l' : List β} (h : List.Forall₂ R l l') : l.length = l'.length := by
  induction h with
  | nil => rfl
  | cons _ _ ih => simp [ih]
end

variable (S : Sim D)

theorem eval_sim {s : St} {vs : List D.V} {as : List (List D.V)} (hv : List.Forall₂ S.R s.vars vs)
    (ha : List.Forall₂ (List.Forall₂ S.R) s.arrs as) (e : Ex) {y : D.V} (h : seval D vs as e = some y) :
    ∃ x, e.eval s = .ok x ∧ S.R x y := by
  induction e generalizing y with
  | v x =>
    rw [seval, getK_eq] at h
    exact forall₂_get hv h
  | ix p i =>
    rw [seval, getK_eq] at h
    cases ha' : as[p]? with
    | none => rw [ha'] at h; cases h
    | some a =>
      rw [ha'] at h
      simp only [getK_eq] at h
      obtain ⟨a', h1, h2⟩ := forall₂_get ha ha'
      obtain ⟨x, h3, h4⟩ := forall₂_get h2 h
      exact ⟨x, by rw [Ex.eval, h1]; exact h3, h4⟩
  | set1 n => cases h; exact ⟨_, rfl, S.set1 n⟩
  | op2 o a b iha ihb =>
    rw [seval] at h
    split at h
    · cases h
    · rename_i x hx
      split at h
      · cases h
      · rename_i y hy
        cases h
        obtain ⟨x', h1, h2⟩ := iha hx
        obtain ⟨y', h3, h4⟩ := ihb hy
        exact ⟨_, by rw [Ex.eval, h1, h3]; rfl, S.op2 o _ _ _ _ h2 h4⟩
  | slli a n iha =>
    rw [seval] at h
    split at h
    · cases h
    · rename_i x hx
      cases h
      obtain ⟨x', h1, h2⟩ := iha hx
      exact ⟨_, by rw [Ex.eval, h1]; rfl, S.sll _ _ n h2⟩
  | srli a n iha =>
    rw [seval] at h
    split at h
    · cases h
    · rename_i x hx
      cases h
      obtain ⟨x', h1, h2⟩ := iha hx
      exact ⟨_, by rw [Ex.eval, h1]; rfl, S.srl _ _ n h2⟩

theorem exec_sim (l : List Stmt) {s : St} {vs : List D.V} {as as' : List (List D.V)} (hv : List.Forall₂ S.R s.vars vs)
    (ha : List.Forall₂ (List.Forall₂ S.R) s.arrs as) (h : sexec D l vs as = some as') :
    ∃ t, exec l s = .ok t ∧ List.Forall₂ (List.Forall₂ S.R) t.arrs as' := by
  induction l generalizing s vs as with
  | nil => cases h; exact ⟨s, rfl, ha⟩
  | cons t r ih =>
    rw [sexec] at h
    split at h
    · cases h
    · rename_i y hy
      obtain ⟨x, h1, h2⟩ := eval_sim S hv ha t.e hy
      rw [S.force] at h
      rw [exec, Stmt.exec, h1]
      split at h
      · rename_i z hz
        obtain ⟨h3, h4⟩ := setK_eq h
        obtain ⟨u, h5, h6⟩ := ih (s := ⟨s.vars.set z x, s.arrs⟩) (forall₂_set hv z h2) ha h4
        refine ⟨u, ?_, h6⟩
        rw [hz]
        simp only [ok_bind]
        rw [wr_ok (by rw [forall₂_length hv]; exact h3)]
        exact h5
      · rename_i p i hz
        split at h
        · cases h
        · rename_i a hp
          obtain ⟨h3, h4⟩ := setK_eq h
          obtain ⟨h5, h6⟩ := setK_eq h4
          rw [getK_eq] at hp
          obtain ⟨a', h7, h8⟩ := forall₂_get ha hp
          obtain ⟨u, h9, h10⟩ := ih (s := ⟨s.vars, s.arrs.set p (a'.set i x)⟩) hv (forall₂_set ha p (forall₂_set h8 i h2)) h6
          refine ⟨u, ?_, h10⟩
          rw [hz]
          simp only [ok_bind]
          rw [h7]
          simp only [ok_bind]
          rw [wr_ok (by rw [forall₂_length h8]; exact h3)]
          simp only [ok_bind]
          rw [wr_ok (by rw [forall₂_length ha]; exact h5)]
          exact h9
      · cases h

theorem run_sim (n : Nat) (l : List Stmt) {arrs : List (List Vec)} {vs : List D.V} {as as' : List (List D.V)}
    (hv : List.Forall₂ S.R (uninitVecs 90 n) vs) (ha : List.Forall₂ (List.Forall₂ S.R) arrs as) (h : sexec D l vs as = some as') :
    ∃ t, run n arrs l = .ok t ∧ List.Forall₂ (List.Forall₂ S.R) t as' := by
  obtain ⟨t, h1, h2⟩ := exec_sim S l (s := ⟨uninitVecs 90 n, arrs⟩) hv ha h
  exact ⟨t.arrs, by rw [run, h1]; rfl, h2⟩

/-! ### Longer arrays -/

/-- Arrays with further elements behind them. -/
def ext (as rs : List (List Vec)) : List (List Vec) := List.zipWith (· ++ ·) as rs

theorem rd_ext {as rs : List (List Vec)} (hl : rs.length = as.length) {p : Nat} {a : List Vec} (h : rd as p = .ok a) :
    ∃ r, rs[p]? = some r ∧ rd (ext as rs) p = .ok (a ++ r) := by
  unfold rd at h ⊢
  split at h
  · rename_i a' ha
    cases h
    have hp : p < as.length := by
      obtain ⟨h, -⟩ := List.getElem?_eq_some_iff.mp ha
      exact h
    refine ⟨rs[p], List.getElem?_eq_getElem (by omega), ?_⟩
    simp [ext, List.getElem?_zipWith, ha, List.getElem?_eq_getElem (show p < rs.length by omega)]
  · cases h

theorem rd_append {α : Type} {a r : List α} {i : Nat} {x : α} (h : rd a i = .ok x) : rd (a ++ r) i = .ok x := by
  unfold rd at h ⊢
  split at h
  · rename_i y hy
    cases h
    obtain ⟨hi, -⟩ := List.getElem?_eq_some_iff.mp hy
    rw [List.getElem?_append_left hi, hy]
  · cases h

theorem wr_inv {α : Type} {a b : List α} {i : Nat} {x : α} (h : wr a i x = .ok b) : i < a.length ∧ b = a.set i x := by
  unfold wr at h
  split at h
  · rename_i hi
    cases h
    exact ⟨hi, rfl⟩
  · cases h

theorem bind_inv {α β : Type} {m : CM α} {f : α → CM β} {b : β} (h : (m >>= f) = .ok b) : ∃ a, m = .ok a ∧ f a = .ok b := by
  cases m with
  | error e => cases h
  | ok a => exact ⟨a, rfl, h⟩

theorem eval_ext {vs : List Vec} {as rs : List (List Vec)} (hl : rs.length = as.length) (e : Ex) {x : Vec} (h : e.eval ⟨vs, as⟩ = .ok x) :
    e.eval ⟨vs, ext as rs⟩ = .ok x := by
  induction e generalizing x with
  | v y => exact h
  | ix p i =>
    rw [Ex.eval] at h ⊢
    obtain ⟨a, h1, h2⟩ := bind_inv h
    obtain ⟨r, -, h4⟩ := rd_ext hl h1
    simp only [h4, ok_bind]
    exact rd_append h2
  | set1 n => exact h
  | op2 o a b iha ihb =>
    rw [Ex.eval] at h ⊢
    obtain ⟨x, h1, h2⟩ := bind_inv h
    obtain ⟨y, h3, h4⟩ := bind_inv h2
    rw [iha h1, ok_bind, ihb h3]
    exact h4
  | slli a n iha =>
    rw [Ex.eval] at h ⊢
    obtain ⟨x, h1, h2⟩ := bind_inv h
    rw [iha h1]
    exact h2
  | srli a n iha =>
    rw [Ex.eval] at h ⊢
    obtain ⟨x, h1, h2⟩ := bind_inv h
    rw [iha h1]
    exact h2

theorem ext_set {as rs : List (List Vec)} {p : Nat} {a r : List Vec} (hr : rs[p]? = some r) :
    (ext as rs).set p (a ++ r) = ext (as.set p a) rs := by
  apply List.ext_getElem?
  intro i
  simp only [ext, List.getElem?_set, List.getElem?_zipWith, List.length_zipWith]
  by_cases hi : p = i
  · subst hi
    obtain ⟨h, h'⟩ := List.getElem?_eq_some_iff.mp hr
    by_cases hp : p < as.length
    · simp only [hp, h, Nat.lt_min, and_self, if_true, List.getElem?_eq_getElem, h']
    · have : ¬ p < min as.length rs.length := by omega
      simp only [hp, this, if_true, if_false]
  · simp [hi]

theorem exec_ext (l : List Stmt) {vs : List Vec} {as rs : List (List Vec)} {t : St} (hl : rs.length = as.length) (h : exec l ⟨vs, as⟩ = .ok t) :
    exec l ⟨vs, ext as rs⟩ = .ok ⟨t.vars, ext t.arrs rs⟩ := by
  induction l generalizing vs as with
  | nil => cases h; rfl
  | cons c l ih =>
    rw [exec] at h ⊢
    obtain ⟨s, h1, h2⟩ := bind_inv h
    rw [Stmt.exec] at h1 ⊢
    obtain ⟨y, h3, h4⟩ := bind_inv h1
    rw [eval_ext hl c.e h3, ok_bind]
    split at h4
    · obtain ⟨vs', h5, h6⟩ := bind_inv h4
      simp only at h5 ⊢
      rw [h5]
      cases h6
      exact ih hl h2
    · rename_i p i hp
      obtain ⟨a, h5, h6⟩ := bind_inv h4
      obtain ⟨b, h7, h8⟩ := bind_inv h6
      obtain ⟨as', h9, h10⟩ := bind_inv h8
      obtain ⟨r, h11, h12⟩ := rd_ext hl h5
      obtain ⟨h13, rfl⟩ := wr_inv h7
      obtain ⟨h14, rfl⟩ := wr_inv h9
      cases h10
      simp only at h14 ⊢
      rw [h12, ok_bind, wr_ok (by rw [List.length_append]; omega), ok_bind, wr_ok (by simp only [ext, List.length_zipWith]; omega), ok_bind,
        List.set_append_left _ _ h13, ext_set h11]
      exact ih (by rw [List.length_set]; exact hl) h2
    · cases h4

theorem run_ext {n : Nat} {l : List Stmt} {as rs t : List (List Vec)} (hl : rs.length = as.length) (h : run n as l = .ok t) :
    run n (ext as rs) l = .ok (ext t rs) := by
  unfold run at h ⊢
  obtain ⟨s, h1, h2⟩ := bind_inv h
  rw [exec_ext l hl h1]
  cases h2
  rfl

/-- Lane `l` of element `i` of an array of vectors. -/
def el (M : List Vec) (i l : Nat) : BitVec 16 := (M.getD i fun _ => 0).lane l

theorem forall₂_getD {V : Type} {R : Vec → V → Prop} {l : List Vec} {l' : List V} (h : List.Forall₂ R l l') {i : Nat} {y : V} (hy : l'[i]? = some y) :
    R (l.getD i fun _ => 0) y := by
  obtain ⟨x, h1, h2⟩ := forall₂_get h hy
  unfold rd at h1
  split at h1
  · rename_i z hz
    cases h1
    rw [List.getD_eq_getElem?_getD, hz]
    exact h2
  · cases h1

end Saber.Avx

import Mathlib.Algebra.BigOperators.Group.List.Basic
import Mathlib.Data.BitVec
import Mathlib.Tactic.Ring
import Mathlib.Tactic.Linarith
/-!
# Sums of monomials encoded by numbers

A list of exponents `t` stands for the sum of the values `v t`.  It is encoded by the number `∑ B^t`; for fewer than `B` terms, equal
numbers mean equal sums.
-/
namespace Saber.Arm

def enc (B : Nat) (l : List Nat) : Nat := (l.map (B ^ ·)).sum

theorem enc_split (B k : Nat) (hB : 0 < B) (l : List Nat) :
    ∃ a c, enc B l = a + l.count k * B ^ k + c * B ^ (k + 1) ∧ a * B ≤ l.length * B ^ k := by
  induction l with
  | nil => exact ⟨0, 0, by simp [enc], by simp⟩
  | cons t l ih =>
    obtain ⟨a, c, h1, h2⟩ := ih
    have e : enc B (t :: l) = B ^ t + enc B l := by simp [enc]
    rw [e, h1]
    rcases Nat.lt_trichotomy t k with h | h | h
    · refine ⟨a + B ^ t, c, ?_, ?_⟩
      · rw [List.count_cons_of_ne (by omega)]; ring
      · have : B ^ t * B ≤ B ^ k := by rw [← pow_succ]; exact Nat.pow_le_pow_right hB h
        rw [List.length_cons]
        nlinarith
    · subst h
      refine ⟨a, c, ?_, ?_⟩
      · rw [List.count_cons_self]; ring
      · rw [List.length_cons]; exact h2.trans (Nat.mul_le_mul_right _ (by omega))
    · refine ⟨a, c + B ^ (t - (k + 1)), ?_, ?_⟩
      · rw [List.count_cons_of_ne (by omega)]
        have : B ^ t = B ^ (t - (k + 1)) * B ^ (k + 1) := by rw [← pow_add]; congr 1; omega
        rw [this]; ring
      · rw [List.length_cons]; exact h2.trans (Nat.mul_le_mul_right _ (by omega))

theorem enc_digit (B k : Nat) (l : List Nat) (hl : l.length < B) : enc B l / B ^ k % B = l.count k := by
  have hB : 0 < B := by omega
  obtain ⟨a, c, h1, h2⟩ := enc_split B k hB l
  have hp : 0 < B ^ k := Nat.pow_pos hB
  have ha : a < B ^ k := by
    by_contra h
    have : B ^ k * B ≤ a * B := Nat.mul_le_mul_right _ (by omega)
    nlinarith
  rw [h1, show a + l.count k * B ^ k + c * B ^ (k + 1) = a + (l.count k + c * B) * B ^ k by ring, Nat.add_mul_div_right _ _ hp,
    Nat.div_eq_of_lt ha, Nat.zero_add, Nat.add_mul_mod_self_right]
  exact Nat.mod_eq_of_lt (lt_of_le_of_lt List.count_le_length hl)

theorem enc_perm {B : Nat} {l l' : List Nat} (hl : l.length < B) (hl' : l'.length < B) (h : enc B l = enc B l') : l.Perm l' := by
  rw [List.perm_iff_count]
  intro k
  rw [← enc_digit B k l hl, ← enc_digit B k l' hl', h]

theorem enc_append (B : Nat) (l l' : List Nat) : enc B (l ++ l') = enc B l + enc B l' := by simp [enc]

/-- The sum of the values of a list of exponents. -/
def lsum (v : Nat → BitVec 16) (l : List Nat) : BitVec 16 := (l.map v).sum

theorem lsum_append (v : Nat → BitVec 16) (l l' : List Nat) : lsum v (l ++ l') = lsum v l + lsum v l' := by simp [lsum]

/-- `h` is the difference of the sums encoded by `p` and `n`, each with at most `m` terms. -/
def Form (B : Nat) (v : Nat → BitVec 16) (ok : Nat → Prop) (p n m : Nat) (h : BitVec 16) : Prop :=
  ∃ lp ln : List Nat, (∀ t ∈ lp, ok t) ∧ (∀ t ∈ ln, ok t) ∧ p = enc B lp ∧ n = enc B ln ∧ lp.length ≤ m ∧ ln.length ≤ m ∧
    h = lsum v lp - lsum v ln

variable {B : Nat} {v : Nat → BitVec 16} {ok : Nat → Prop}

theorem Form.add {p n m p' n' m' : Nat} {h h' : BitVec 16} (a : Form B v ok p n m h) (b : Form B v ok p' n' m' h') :
    Form B v ok (p + p') (n + n') (m + m') (h + h') := by
  obtain ⟨lp, ln, a1, a2, rfl, rfl, a5, a6, rfl⟩ := a
  obtain ⟨lp', ln', b1, b2, rfl, rfl, b5, b6, rfl⟩ := b
  refine ⟨lp ++ lp', ln ++ ln', ?_, ?_, (enc_append _ _ _).symm, (enc_append _ _ _).symm, ?_, ?_, ?_⟩
  · intro t ht; rcases List.mem_append.1 ht with h | h; exacts [a1 t h, b1 t h]
  · intro t ht; rcases List.mem_append.1 ht with h | h; exacts [a2 t h, b2 t h]
  · rw [List.length_append]; omega
  · rw [List.length_append]; omega
  · rw [lsum_append, lsum_append]; ring

theorem Form.neg {p n m : Nat} {h : BitVec 16} (a : Form B v ok p n m h) : Form B v ok n p m (-h) := by
  obtain ⟨lp, ln, a1, a2, rfl, rfl, a5, a6, rfl⟩ := a
  exact ⟨ln, lp, a2, a1, rfl, rfl, a6, a5, by ring⟩

theorem Form.unique {p n m p' n' m' : Nat} {h h' : BitVec 16} (a : Form B v ok p n m h) (b : Form B v ok p' n' m' h')
    (e : p + n' = n + p') (hm : m + m' < B) : h = h' := by
  obtain ⟨lp, ln, a1, a2, rfl, rfl, a5, a6, rfl⟩ := a
  obtain ⟨lp', ln', b1, b2, rfl, rfl, b5, b6, rfl⟩ := b
  rw [← enc_append, ← enc_append] at e
  have := enc_perm (by rw [List.length_append]; omega) (by rw [List.length_append]; omega) e
  have : lsum v (lp ++ ln') = lsum v (ln ++ lp') := (this.map v).sum_eq
  rw [lsum_append, lsum_append] at this
  rw [sub_eq_sub_iff_add_eq_add, this, add_comm]

def lprod (l l' : List Nat) : List Nat := l.flatMap fun t => l'.map (t + ·)

theorem enc_lprod (B : Nat) (l l' : List Nat) : enc B (lprod l l') = enc B l * enc B l' := by
  induction l with
  | nil => simp [lprod, enc]
  | cons t l ih =>
    have e : lprod (t :: l) l' = l'.map (t + ·) ++ lprod l l' := by simp [lprod]
    have e1 : enc B (l'.map (t + ·)) = B ^ t * enc B l' := by
      clear ih e
      induction l' with
      | nil => simp [enc]
      | cons u l' ih =>
        have e2 : enc B ((u :: l').map (t + ·)) = B ^ (t + u) + enc B (l'.map (t + ·)) := by simp [enc]
        have e3 : enc B (u :: l') = B ^ u + enc B l' := by simp [enc]
        rw [e2, ih, e3, pow_add]; ring
    have e4 : enc B (t :: l) = B ^ t + enc B l := by simp [enc]
    rw [e, enc_append, ih, e1, e4]; ring

theorem lsum_lprod {v w u : Nat → BitVec 16} {ok ok' : Nat → Prop} (h : ∀ t t', ok t → ok' t' → u (t + t') = v t * w t') {l l' : List Nat}
    (hl : ∀ t ∈ l, ok t) (hl' : ∀ t ∈ l', ok' t) : lsum u (lprod l l') = lsum v l * lsum w l' := by
  induction l with
  | nil => simp [lprod, lsum]
  | cons t l ih =>
    have e : lprod (t :: l) l' = l'.map (t + ·) ++ lprod l l' := by simp [lprod]
    have e1 : lsum u (l'.map (t + ·)) = v t * lsum w l' := by
      clear ih e
      induction l' with
      | nil => simp [lsum]
      | cons t' l' ih =>
        have e2 : lsum u ((t' :: l').map (t + ·)) = u (t + t') + lsum u (l'.map (t + ·)) := by simp [lsum]
        have e3 : lsum w (t' :: l') = w t' + lsum w l' := by simp [lsum]
        rw [e2, ih fun t ht => hl' t (List.mem_cons_of_mem _ ht), e3, h t t' (hl t List.mem_cons_self) (hl' t' List.mem_cons_self)]; ring
    have e4 : lsum v (t :: l) = v t + lsum v l := by simp [lsum]
    rw [e, lsum_append, ih fun t ht => hl t (List.mem_cons_of_mem _ ht), e1, e4]; ring

theorem length_lprod (l l' : List Nat) : (lprod l l').length = l.length * l'.length := by
  induction l with
  | nil => simp [lprod]
  | cons t l ih =>
    have e : lprod (t :: l) l' = l'.map (t + ·) ++ lprod l l' := by simp [lprod]
    rw [e, List.length_append, ih, List.length_map, List.length_cons]; ring

theorem Form.mul {v w u : Nat → BitVec 16} {ok ok' : Nat → Prop} (h : ∀ t t', ok t → ok' t' → u (t + t') = v t * w t')
    {p n m p' n' m' : Nat} {a a' : BitVec 16} (f : Form B v ok p n m a) (g : Form B w ok' p' n' m' a') :
    Form B u (fun _ => True) (p * p' + n * n') (p * n' + n * p') (2 * (m * m')) (a * a') := by
  obtain ⟨lp, ln, a1, a2, rfl, rfl, a5, a6, rfl⟩ := f
  obtain ⟨lp', ln', b1, b2, rfl, rfl, b5, b6, rfl⟩ := g
  have hm {x y : Nat} (hx : x ≤ m) (hy : y ≤ m') : x * y ≤ m * m' := Nat.mul_le_mul hx hy
  refine ⟨lprod lp lp' ++ lprod ln ln', lprod lp ln' ++ lprod ln lp', fun _ _ => trivial, fun _ _ => trivial, ?_, ?_, ?_, ?_, ?_⟩
  · rw [enc_append, enc_lprod, enc_lprod]
  · rw [enc_append, enc_lprod, enc_lprod]
  · rw [List.length_append, length_lprod, length_lprod]
    have := hm a5 b5
    have := hm a6 b6
    omega
  · rw [List.length_append, length_lprod, length_lprod]
    have := hm a5 b6
    have := hm a6 b5
    omega
  · rw [lsum_append, lsum_append, lsum_lprod h a1 b1, lsum_lprod h a2 b2, lsum_lprod h a1 b2, lsum_lprod h a2 b1]; ring

end Saber.Arm

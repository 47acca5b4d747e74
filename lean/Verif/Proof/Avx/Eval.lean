import Verif.Proof.Avx.Scm
/-!
# The evaluation steps of the AVX2 multiplication

The 16 vectors of a polynomial are evaluated at seven points (Toom-Cook) and then split into nine sums (two steps of Karatsuba), which gives 63
vectors.  Vector `u` of the input belongs to quarter `u / 4` for Toom-Cook and to block `u % 4` for Karatsuba.
-/
namespace Saber.Avx
open Saber.Arm (LF LH LRH lval forceN forceN_eq)

/-- The factors of the four quarters at the seven points. -/
def points : List (List Nat) :=
  [[0, 0, 0, 1], [1, 2, 4, 8], [1, 1, 1, 1], [1, 65535, 1, 65535], [8, 4, 2, 1], [8, 65532, 2, 65535], [1, 0, 0, 0]]

/-- The blocks that are added up in the nine sums. -/
def blocks : List (List Nat) := [[0], [1], [2], [3], [0, 1], [2, 3], [0, 2], [1, 3], [0, 1, 2, 3]]

def evalQ (bs : List Nat) : Nat → List Nat → LF
  | _, [] => []
  | r, 0 :: cs => evalQ bs (r + 1) cs
  | r, c :: cs => bs.map (fun b => (4 * r + b, c)) ++ evalQ bs (r + 1) cs

/-- Vector `t` after the evaluation, as a linear form in the input vectors. -/
def evalF (t : Nat) : LF := evalQ (blocks.getD (t % 9) []) 0 (points.getD (t / 9) [])

def evalsOk : Nat → List LH → Bool
  | _, [] => true
  | t, .lin k l :: r => Nat.beq k 16 && (LF.eq l (evalF t) && evalsOk (t + 1) r)
  | t, _ :: r => Nat.beq t 63 && evalsOk (t + 1) r

def inputs : List LH := (List.range 16).map fun u => .lin 16 [(u, 1)]

def evalOk (toom kara : List Stmt) : Bool :=
  match sexec vlin toom (List.replicate 7 .unk) [inputs, List.replicate 28 .unk] with
  | some [_, w] => match sexec vlin kara (List.replicate 4 .unk) [w, List.replicate 64 .unk] with
    | some [_, r] => Nat.beq r.length 64 && evalsOk 0 r
    | _ => false
  | _ => false

theorem evalA_ok : evalOk TEval.body Eval.batch = true := by decide +kernel
theorem evalB_ok : evalOk TEvalB.body KEval.body = true := by decide +kernel

/-- The variables of a linear form. -/
def varsLt (n : Nat) : LF → Bool
  | [] => true
  | (v, _) :: l => Nat.blt v n && varsLt n l

theorem varsLt_mem {n : Nat} {l : LF} (h : varsLt n l = true) {p : Nat × Nat} (hp : p ∈ l) : p.1 < n := by
  induction l with
  | nil => cases hp
  | cons q l ih =>
    rw [varsLt, Bool.and_eq_true, Nat.blt_eq] at h
    cases hp with
    | head => exact h.1
    | tail _ hp => exact ih h.2 hp

theorem evalF_vars (t : Nat) (ht : t < 63) : varsLt 16 (evalF t) = true := by
  have : ∀ t < 63, varsLt 16 (evalF t) = true := by decide +kernel
  exact this t ht

theorem evalsOk_get {k : Nat} {r : List LH} (h : evalsOk k r = true) {i : Nat} (hi : i < r.length) (hk : k + i ≠ 63) :
    r[i]? = some (.lin 16 (evalF (k + i))) := by
  induction r generalizing k i with
  | nil => cases hi
  | cons x r ih =>
    have hr : evalsOk (k + 1) r = true := by
      cases x with
      | lin m l => rw [evalsOk, Bool.and_eq_true, Bool.and_eq_true] at h; exact h.2.2
      | c n => rw [evalsOk, Bool.and_eq_true] at h; exact h.2; exact fun _ _ h => by cases h
      | unk => rw [evalsOk, Bool.and_eq_true] at h; exact h.2; exact fun _ _ h => by cases h
    cases i with
    | zero =>
      cases x with
      | lin m l =>
        rw [evalsOk, Bool.and_eq_true, Bool.and_eq_true] at h
        rw [Nat.beq_eq.mp h.1, Arm.LF.eq_eq h.2.1]
        rfl
      | c n =>
        rw [evalsOk, Bool.and_eq_true] at h
        · exact absurd (Nat.beq_eq.mp h.1) hk
        · exact fun _ _ h => by cases h
      | unk =>
        rw [evalsOk, Bool.and_eq_true] at h
        · exact absurd (Nat.beq_eq.mp h.1) hk
        · exact fun _ _ h => by cases h
    | succ i =>
      rw [List.getElem?_cons_succ, ih hr (by simpa using hi) (by omega), show k + 1 + i = k + (i + 1) by omega]

theorem linR_unk (v : Nat → Nat → Int) (x : Vec) : linR v x .unk := fun _ => trivial

theorem forall₂_lin {v : Nat → Nat → Int} {l : List Vec} {f : Nat → LH} {n : Nat} (hl : l.length = n)
    (h : ∀ i < n, ∀ k : Fin 16, LRH (v k.val) (BitVec.ofNat 16 (el l i k.val).toNat) (f i)) :
    List.Forall₂ (linR v) l ((List.range n).map f) := by
  conv => arg 2; rw [eq_range_map hl]
  refine forall₂_range_map fun i hi k => ?_
  have := h i hi k
  rw [BitVec.ofNat_toNat, BitVec.setWidth_eq] at this
  rw [el_fin]
  exact this

/-- Lane `l` of the input. -/
def lanev (a : List Vec) (l u : Nat) : Int := (el a u l).toNat

theorem eval_sound {toom kara : List Stmt} (hok : evalOk toom kara = true) {a w0 r0 : List Vec} (ha : a.length = 16) (hw : w0.length = 28)
    (hr : r0.length = 64) : ∃ x w, run 7 [a, w0] toom = .ok [x, w] ∧ ∃ y r, run 4 [w, r0] kara = .ok [y, r] ∧ r.length = 64 ∧
      ∀ t l, t < 63 → l < 16 → ((el r t l).toNat : Int) ≡ lval (lanev a l) (evalF t) [ZMOD 65536] := by
  unfold evalOk at hok
  split at hok
  · rename_i x' w' h1
    split at hok
    · rename_i y' r' h2
      rw [Bool.and_eq_true] at hok
      obtain ⟨t1, h3, h4⟩ := run_sim (linSim (lanev a)) 7 toom (arrs := [a, w0]) (vs := List.replicate 7 .unk)
        (forall₂_replicate (length_uninitVecs 90 7) (linR_unk _)) (.cons (forall₂_lin ha fun i hi k => by
          refine ⟨le_refl _, Arm.ModEq.of_eq ?_⟩
          rw [BitVec.ofNat_toNat, BitVec.setWidth_eq, Arm.lval_cons, Arm.lval_nil, lanev]
          simp) (.cons (forall₂_replicate hw (linR_unk _)) .nil)) h1
      cases h4 with
      | cons h5 h4 => cases h4 with
      | cons h6 h4 =>
        cases h4
        obtain ⟨t2, h7, h8⟩ := run_sim (linSim (lanev a)) 4 kara (arrs := [_, r0]) (vs := List.replicate 4 .unk)
          (forall₂_replicate (length_uninitVecs 90 4) (linR_unk _)) (.cons h6 (.cons (forall₂_replicate hr (linR_unk _)) .nil)) h2
        cases h8 with
        | cons h9 h8 => cases h8 with
        | cons h10 h8 =>
          cases h8
          have hlen := forall₂_length h10
          have hr64 : r'.length = 64 := Nat.beq_eq.mp hok.1
          refine ⟨_, _, h3, _, _, h7, by rw [hlen, hr64], fun t l ht hl => ?_⟩
          have := forall₂_getD h10 (evalsOk_get hok.2 (i := t) (hr64.symm ▸ (show t < 64 by omega)) (by omega)) ⟨l, hl⟩
          rw [Nat.zero_add, el_fin] at this
          exact this.2
    · cases hok
  · cases hok

/-- The array `b` holds the evaluation of the polynomial with vectors `a`, transposed. -/
def EvalOf (a b : List Vec) : Prop := b.length = 64 ∧ ∀ g x l, g < 4 → x < 16 → l < 16 → 16 * g + l < 63 →
  ((el b (16 * g + x) l).toNat : Int) ≡ lval (lanev a x) (evalF (16 * g + l)) [ZMOD 65536]

theorem evalOf_transposes {a r : List Vec} (hr : r.length = 64)
    (h : ∀ t l, t < 63 → l < 16 → ((el r t l).toNat : Int) ≡ lval (lanev a l) (evalF t) [ZMOD 65536]) :
    ∃ b, transposes 4 r = .ok b ∧ EvalOf a b := by
  obtain ⟨b, h1, h2, h3⟩ := transposes_spec (n := 4) hr
  refine ⟨b, h1, h2, fun g x l hg hx hl ht => ?_⟩
  rw [h3 g x l hg hx hl]
  exact h _ _ ht hx

/-- `TC_eval` evaluates the secret. -/
theorem TC_eval_spec {b bb : List Vec} (hb : b.length = 16) (hbb : bb.length = 64) : ∃ b', TC_eval b bb = .ok b' ∧ EvalOf b b' := by
  obtain ⟨x, w, h1, y, r, h2, h3, h4⟩ := eval_sound evalB_ok hb (length_uninitVecs 93 28) hbb
  obtain ⟨b', h5, h6⟩ := evalOf_transposes h3 h4
  refine ⟨b', ?_, h6⟩
  rw [TC_eval, h1, ok_bind, show rd [x, w] 1 = .ok w from rfl, ok_bind, KARA_eval, h2, ok_bind, show rd [y, r] 1 = .ok r from rfl, ok_bind, h5]

end Saber.Avx

import Verif.Proof.Avx.Sym
import Verif.Model.Avx.Toom
import Verif.Proof.Arm.KSim
/-!
# The transposition of 16 vectors
-/
namespace Saber.Avx
open Saber.Arm (forceN forceN_eq)

def forceL {α : Type} : List Nat → (List Nat → α) → α
  | [], k => k []
  | x :: l, k => forceN x fun x => forceL l fun l => k (x :: l)

theorem forceL_eq {α : Type} (l : List Nat) (k : List Nat → α) : forceL l k = k l := by
  induction l generalizing k with
  | nil => rfl
  | cons x l ih => rw [forceL, forceN_eq, ih]

def nthN : List Nat → Nat → Nat
  | [], _ => 0
  | x :: _, 0 => x
  | _ :: l, i + 1 => nthN l i

theorem nthN_eq (l : List Nat) (i : Nat) : nthN l i = l.getD i 0 := by
  induction l generalizing i with
  | nil => simp [nthN]
  | cons x l ih => cases i <;> simp [nthN, ih]

/-- Symbolic vectors for code that only moves lanes: for every lane, the number of the input lane it holds. -/
def pick (o : Op2) (a b : List Nat) (l : Nat) : Nat := match o.lane l with
  | (false, i) => nthN a (i % 16)
  | (true, i) => nthN b (i % 16)

def pickAll (o : Op2) (a b : List Nat) : List Nat := (List.range 16).map (pick o a b)

def lanes : SDom where
  V := Option (List Nat)
  op2
    | .add, _, _ => none
    | .sub, _, _ => none
    | .mullo, _, _ => none
    | o, some a, some b => some (pickAll o a b)
    | _, _, _ => none
  sll _ _ := none
  srl _ _ := none
  set1 _ := none
  force x k := match x with
    | none => k none
    | some l => forceL l fun l => k (some l)

/-- What the lanes hold. -/
def lanesR (f : Nat → BitVec 16) (a : Vec) : Option (List Nat) → Prop
  | none => True
  | some l => ∀ i : Fin 16, a i = f (l.getD i.val 0)

theorem lanesR_pick (f : Nat → BitVec 16) {o : Op2} {a b : Vec} {a' b' : List Nat} (ha : lanesR f a (some a')) (hb : lanesR f b (some b'))
    (ho : o.eval a b = fun l => match o.lane l.val with
      | (false, i) => a.lane i
      | (true, i) => b.lane i) : lanesR f (o.eval a b) (some (pickAll o a' b')) := by
  intro i
  rw [ho, pickAll, List.getD_eq_getElem?_getD, List.getElem?_map, List.getElem?_range i.isLt]
  simp only [Option.map_some, Option.getD_some, pick]
  split
  · rename_i h
    rw [nthN_eq]
    exact ha _
  · rename_i h
    rw [nthN_eq]
    exact hb _

def lanesSim (f : Nat → BitVec 16) : Sim lanes where
  R := lanesR f
  op2 o a b a' b' ha hb := by
    cases o
    case add => trivial
    case sub => trivial
    case mullo => trivial
    all_goals
      cases a' with
      | none => trivial
      | some a' => cases b' with
        | none => trivial
        | some b' => exact lanesR_pick f ha hb rfl
  sll _ _ _ _ := trivial
  srl _ _ _ _ := trivial
  set1 _ := trivial
  force x k := by
    cases x with
    | none => rfl
    | some l => exact forceL_eq l _

def beqL : List Nat → List Nat → Bool
  | [], [] => true
  | x :: l, y :: m => Nat.beq x y && beqL l m
  | _, _ => false

theorem beqL_eq {l m : List Nat} (h : beqL l m = true) : l = m := by
  induction l generalizing m with
  | nil => cases m with
    | nil => rfl
    | cons => cases h
  | cons x l ih => cases m with
    | nil => cases h
    | cons y m =>
      rw [beqL, Bool.and_eq_true] at h
      rw [Nat.beq_eq.mp h.1, ih h.2]

/-- The rows of the matrix before and after the transposition. -/
def rows : List (Option (List Nat)) := (List.range 16).map fun i => some ((List.range 16).map fun l => 16 * i + l)

def colsOk : Nat → List (Option (List Nat)) → Bool
  | _, [] => true
  | i, some l :: r => beqL l ((List.range 16).map fun l => 16 * l + i) && colsOk (i + 1) r
  | _, none :: _ => false

def transposeOk : Bool := match sexec lanes Matrix.body (List.replicate 16 none) [rows] with
  | some [r] => Nat.beq r.length 16 && colsOk 0 r
  | _ => false

theorem transposeOk_true : transposeOk = true := by decide +kernel

theorem colsOk_get {k : Nat} {r : List (Option (List Nat))} (h : colsOk k r = true) {i : Nat} (hi : i < r.length) :
    r[i]? = some (some ((List.range 16).map fun l => 16 * l + (k + i))) := by
  induction r generalizing k i with
  | nil => cases hi
  | cons x r ih =>
    cases x with
    | none => cases h
    | some l =>
      rw [colsOk, Bool.and_eq_true] at h
      cases i with
      | zero => rw [List.getElem?_cons_zero, beqL_eq h.1]; rfl
      | succ i =>
        rw [List.getElem?_cons_succ, ih h.2 (by simpa using hi)]
        rw [show k + 1 + i = k + (i + 1) by omega]

theorem forall₂_range_map {α β : Type} {R : α → β → Prop} {f : Nat → α} {g : Nat → β} {n : Nat} (h : ∀ i < n, R (f i) (g i)) :
    List.Forall₂ R ((List.range n).map f) ((List.range n).map g) := by
  rw [List.forall₂_map_left_iff, List.forall₂_map_right_iff, List.forall₂_same]
  intro i hi
  exact h i (List.mem_range.mp hi)

theorem forall₂_replicate {α β : Type} {R : α → β → Prop} {l : List α} {y : β} {n : Nat} (hl : l.length = n) (h : ∀ x, R x y) :
    List.Forall₂ R l (List.replicate n y) := by
  subst hl
  induction l with
  | nil => exact .nil
  | cons x l ih => exact .cons (h x) ih

theorem length_uninitVecs (t n : Nat) : (uninitVecs t n).length = n := by simp [uninitVecs]

theorem eq_range_map {M : List Vec} {n : Nat} (h : M.length = n) : M = (List.range n).map fun i => M.getD i fun _ => 0 := by
  subst h
  apply List.ext_getElem
  · simp
  · intro i h1 h2
    simp [h1]

theorem lane_fin (a : Vec) (i : Fin 16) : a.lane i.val = a i := by
  unfold Vec.lane
  exact congrArg a (Fin.ext (Nat.mod_eq_of_lt i.isLt))

theorem transpose_n1_16 {M : List Vec} (h : M.length = 16) :
    ∃ M', run 16 [M] Matrix.body = .ok [M'] ∧ M'.length = 16 ∧ ∀ i l, i < 16 → l < 16 → el M' i l = el M l i := by
  have hc := transposeOk_true
  unfold transposeOk at hc
  split at hc
  · rename_i r hr
    rw [Bool.and_eq_true] at hc
    let f : Nat → BitVec 16 := fun n => el M (n / 16) (n % 16)
    obtain ⟨t, h1, h2⟩ := run_sim (lanesSim f) 16 Matrix.body (arrs := [M]) (vs := List.replicate 16 none)
      (forall₂_replicate (length_uninitVecs 90 16) fun _ => trivial) (.cons (by
        rw [eq_range_map h]
        refine forall₂_range_map fun i hi => ?_
        intro l
        have hl := l.isLt
        simp only [List.getD_eq_getElem?_getD, List.getElem?_map, List.getElem?_range l.isLt, Option.map_some, Option.getD_some]
        show _ = el M ((16 * i + l.val) / 16) ((16 * i + l.val) % 16)
        rw [show (16 * i + l.val) / 16 = i by omega, show (16 * i + l.val) % 16 = l.val by omega, el, lane_fin, List.getD_eq_getElem?_getD]) .nil) hr
    cases h2 with
    | cons h3 h4 =>
      cases h4
      have hlen := forall₂_length h3
      have hr16 : r.length = 16 := Nat.beq_eq.mp hc.1
      refine ⟨_, h1, by rw [hlen, hr16], fun i l hi hl => ?_⟩
      have := forall₂_getD h3 (colsOk_get hc.2 (i := i) (hr16.symm ▸ hi)) ⟨l, hl⟩
      rw [el, show l = (⟨l, hl⟩ : Fin 16).val from rfl, lane_fin, this]
      simp only [List.getD_eq_getElem?_getD, List.getElem?_map, List.getElem?_range hl, Option.map_some, Option.getD_some, f]
      rw [show (16 * l + (0 + i)) / 16 = l by omega, show (16 * l + (0 + i)) % 16 = i by omega]
  · cases hc

/-- `transpose_n1` transposes the first 16 vectors. -/
theorem transpose_n1_spec {M : List Vec} (h : 16 ≤ M.length) :
    ∃ M', transpose_n1 M = .ok (M' ++ M.drop 16) ∧ M'.length = 16 ∧ ∀ i l, i < 16 → l < 16 → el M' i l = el M l i := by
  obtain ⟨M', h1, h2, h3⟩ := transpose_n1_16 (M := M.take 16) (by rw [List.length_take]; omega)
  have h4 := run_ext (as := [M.take 16]) (rs := [M.drop 16]) rfl h1
  simp only [ext, List.zipWith_cons_cons, List.zipWith_nil_left, List.take_append_drop] at h4
  refine ⟨M', by rw [transpose_n1, h4]; rfl, h2, fun i l hi hl => ?_⟩
  rw [h3 i l hi hl, el, el, List.getD_eq_getElem?_getD, List.getD_eq_getElem?_getD, List.getElem?_take_of_lt hl]

theorem el_append_left {a b : List Vec} {i l : Nat} (h : i < a.length) : el (a ++ b) i l = el a i l := by
  rw [el, el, List.getD_eq_getElem?_getD, List.getD_eq_getElem?_getD, List.getElem?_append_left h]

theorem el_append_right {a b : List Vec} {i l : Nat} (h : a.length ≤ i) : el (a ++ b) i l = el b (i - a.length) l := by
  rw [el, el, List.getD_eq_getElem?_getD, List.getD_eq_getElem?_getD, List.getElem?_append_right h]

theorem el_drop (a : List Vec) (k i l : Nat) : el (a.drop k) i l = el a (k + i) l := by
  rw [el, el, List.getD_eq_getElem?_getD, List.getD_eq_getElem?_getD, List.getElem?_drop]

theorem el_take {a : List Vec} {k i l : Nat} (h : i < k) : el (a.take k) i l = el a i l := by
  rw [el, el, List.getD_eq_getElem?_getD, List.getD_eq_getElem?_getD, List.getElem?_take_of_lt h]

theorem transposes_aux (n : Nat) (M : List Vec) (h : 16 * n ≤ M.length) :
    ∃ M', transposes n M = .ok M' ∧ M'.length = M.length ∧
      (∀ g i l, g < n → i < 16 → l < 16 → el M' (16 * g + i) l = el M (16 * g + l) i) ∧ ∀ i l, 16 * n ≤ i → el M' i l = el M i l := by
  induction n with
  | zero => exact ⟨M, rfl, rfl, fun g _ _ hg => by omega, fun _ _ _ => rfl⟩
  | succ n ih =>
    obtain ⟨M1, h1, h2, h3, h4⟩ := ih (by omega)
    obtain ⟨T, h5, h6, h7⟩ := transpose_n1_spec (M := M1.drop (16 * n)) (by rw [List.length_drop]; omega)
    have hlt : (M1.take (16 * n)).length = 16 * n := by rw [List.length_take]; omega
    refine ⟨M1.take (16 * n) ++ (T ++ (M1.drop (16 * n)).drop 16), ?_, ?_, ?_, ?_⟩
    · rw [transposes, loop, show loop n M _ = .ok M1 from h1, ok_bind, onSlice, h5]
      rfl
    · simp only [List.length_append, hlt, h6, List.length_drop]
      omega
    · intro g i l hg hi hl
      by_cases hgn : g = n
      · subst hgn
        rw [el_append_right (by omega), hlt, el_append_left (by omega), show 16 * g + i - 16 * g = i by omega, h7 i l hi hl, el_drop, h4 _ _ (by omega)]
      · rw [el_append_left (by omega), el_take (by omega), h3 g i l (by omega) hi hl]
    · intro i l hi
      rw [el_append_right (by omega), hlt, el_append_right (by omega), h6, el_drop, el_drop, show 16 * n + (16 + (i - 16 * n - 16)) = i by omega,
        h4 _ _ (by omega)]

/-- The transposition of all blocks of an array. -/
theorem transposes_spec {n : Nat} {M : List Vec} (h : M.length = 16 * n) :
    ∃ M', transposes n M = .ok M' ∧ M'.length = 16 * n ∧ ∀ g i l, g < n → i < 16 → l < 16 → el M' (16 * g + i) l = el M (16 * g + l) i := by
  obtain ⟨M', h1, h2, h3, -⟩ := transposes_aux n M (by omega)
  exact ⟨M', h1, by omega, h3⟩

end Saber.Avx

import Verif.Spec.Saber
import Mathlib.Data.ZMod.Basic
import Mathlib.Tactic.Ring
import Mathlib.Tactic.Abel
import Mathlib.Algebra.BigOperators.Ring.Finset
/-!
# Algebra of `Z[X]/(X^256 + 1)`
-/
namespace Saber
open Spec

theorem negMul_comm (a b : Poly) : negMul a b = negMul b a := by
  funext k
  unfold negMul
  apply Fintype.sum_equiv (Equiv.subLeft k)
  intro i
  simp only [Equiv.subLeft_apply, sub_sub_cancel]
  have : (i ≤ k) ↔ (k - i ≤ k) := by
    rw [Fin.le_def, Fin.le_def, Fin.sub_def]
    have := i.isLt; have := k.isLt
    simp only
    omega
  simp only [this]
  ring

theorem negMul_assoc (a b c : Poly) : negMul (negMul a b) c = negMul a (negMul b c) := by
  funext k
  unfold negMul
  simp only [Finset.sum_mul, Finset.mul_sum]
  rw [Finset.sum_comm]
  apply Finset.sum_congr rfl
  intro i _
  apply Fintype.sum_equiv (Equiv.subRight i)
  intro m
  simp only [Equiv.subRight_apply]
  have e : k - i - (m - i) = k - m := by abel
  rw [e]
  have hs : ((if m ≤ k then 1 else -1 : Int) * (if i ≤ m then 1 else -1)) = (if i ≤ k then 1 else -1) * (if m - i ≤ k - i then 1 else -1) := by
    have h1 := i.isLt; have h2 := k.isLt; have h3 := m.isLt
    simp only [Fin.le_def, Fin.sub_def]
    split_ifs <;> first | rfl | omega
  calc _ = ((if m ≤ k then 1 else -1 : Int) * (if i ≤ m then 1 else -1)) * (a i * b (m - i) * c (k - m)) := by ring
    _ = _ := by rw [hs]; ring

theorem negMul_sum_left {ι : Type} (s : Finset ι) (f : ι → Poly) (c : Poly) :
    negMul (fun k => ∑ j ∈ s, f j k) c = fun k => ∑ j ∈ s, negMul (f j) c k := by
  funext k
  unfold negMul
  simp only [Finset.sum_mul, Finset.mul_sum]
  rw [Finset.sum_comm]

theorem negMul_sum_right {ι : Type} (s : Finset ι) (f : ι → Poly) (c : Poly) :
    negMul c (fun k => ∑ j ∈ s, f j k) = fun k => ∑ j ∈ s, negMul c (f j) k := by
  rw [negMul_comm, negMul_sum_left]
  funext k
  exact Finset.sum_congr rfl fun j _ => by rw [negMul_comm]

theorem negMul_add_left (a a' b : Poly) (k : Fin 256) : negMul (fun i => a i + a' i) b k = negMul a b k + negMul a' b k := by
  unfold negMul
  rw [← Finset.sum_add_distrib]
  exact Finset.sum_congr rfl fun i _ => by ring

/-- `<A^T s, s'> = <s, A s'>` over the integers. -/
theorem innerProd_adjoint {l : Nat} (A : PMat l) (s s' : PVec l) :
    innerProd (matVec (transpose A) s) s' = innerProd (matVec A s') s := by
  funext k
  unfold innerProd matVec transpose
  simp only [negMul_sum_left]
  rw [Finset.sum_comm]
  apply Finset.sum_congr rfl
  intro j _
  apply Finset.sum_congr rfl
  intro i _
  rw [negMul_assoc, negMul_assoc, negMul_comm (s j)]

/-! ### Congruences -/

theorem EqMod.iff_cast {m : Nat} {a b : Poly} : EqMod m a b ↔ ∀ k, ((a k : Int) : ZMod m) = (b k : Int) := by
  unfold EqMod
  exact forall_congr' fun k => (ZMod.intCast_eq_intCast_iff' _ _ _).symm

theorem EqMod.refl (m : Int) (a : Poly) : EqMod m a a := fun _ => rfl
theorem EqMod.symm {m : Int} {a b : Poly} (h : EqMod m a b) : EqMod m b a := fun k => (h k).symm
theorem EqMod.trans {m : Int} {a b c : Poly} (h : EqMod m a b) (h' : EqMod m b c) : EqMod m a c :=
  fun k => (h k).trans (h' k)
theorem EqMod.of_dvd {m m' : Int} {a b : Poly} (hd : m' ∣ m) (h : EqMod m a b) : EqMod m' a b := by
  intro k
  have := h k
  rw [← Int.emod_emod_of_dvd (a k) hd, this, Int.emod_emod_of_dvd _ hd]

theorem negMul_congr {m : Nat} {a a' b b' : Poly} (ha : EqMod m a a') (hb : EqMod m b b') :
    EqMod m (negMul a b) (negMul a' b') := by
  rw [EqMod.iff_cast] at *
  intro k
  unfold negMul
  rw [Int.cast_sum, Int.cast_sum]
  apply Finset.sum_congr rfl
  intro i _
  rw [Int.cast_mul, Int.cast_mul, Int.cast_mul, Int.cast_mul, ha, hb]

theorem sum_congr_mod {m : Nat} {l : Nat} {f g : Fin l → Poly} (h : ∀ j, EqMod m (f j) (g j)) :
    EqMod m (fun k => ∑ j, f j k) (fun k => ∑ j, g j k) := by
  rw [EqMod.iff_cast]
  intro k
  rw [Int.cast_sum, Int.cast_sum]
  apply Finset.sum_congr rfl
  intro i _
  exact EqMod.iff_cast.1 (h i) k

theorem innerProd_congr {m l : Nat} {b b' s s' : PVec l} (hb : ∀ j, EqMod m (b j) (b' j)) (hs : ∀ j, EqMod m (s j) (s' j)) :
    EqMod m (innerProd b s) (innerProd b' s') := sum_congr_mod fun j => negMul_congr (hb j) (hs j)

theorem matVec_congr {m l : Nat} {A A' : PMat l} {s s' : PVec l} (hA : ∀ i j, EqMod m (A i j) (A' i j))
    (hs : ∀ j, EqMod m (s j) (s' j)) (i : Fin l) : EqMod m (matVec A s i) (matVec A' s' i) :=
  sum_congr_mod fun j => negMul_congr (hA i j) (hs j)

end Saber

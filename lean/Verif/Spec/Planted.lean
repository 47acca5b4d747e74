import Mathlib.Algebra.BigOperators.Fin
import Mathlib.Data.Int.ModEq
/-!
# Specification: the attack experiment on small instances of Saber

Elements of `Z[x]/(x^n + 1)` are vectors of `n` integers.  An instance has a public 2 x 2 matrix `G` and a public pair `A` with
`A = a * G + e` modulo `q` for a secret pair `a` and a secret pair `e` of small elements.  The attack looks for `a` in a lattice.
-/
namespace Saber.Spec

/-- The product in `Z[x]/(x^n + 1)`: coefficient `k` collects `a i * b j` for `i + j = k` and `- a i * b j` for `i + j = k + n`. -/
def ringMul {n : Nat} (a b : Fin n → Int) : Fin n → Int := fun k =>
  ∑ i, ∑ j, if i.val + j.val = k.val then a i * b j else if i.val + j.val = k.val + n then - (a i * b j) else 0

/-- Coordinate `j < 2 * n` of a pair of elements. -/
def pairCoord {n : Nat} (e1 e2 : Fin n → Int) (j : Nat) : Int :=
  if h : j < n then e1 ⟨j, h⟩ else if h : j - n < n then e2 ⟨j - n, h⟩ else 0

/-- The vector of the experiment for chosen coordinates `S`: the coordinates `S` of `(e1, e2)`, then `z`, then `a1` and `a2`. -/
def attackVector {n : Nat} (S : List Nat) (e1 e2 : Fin n → Int) (z : Int) (a1 a2 : Fin n → Int) : List Int :=
  S.map (pairCoord e1 e2) ++ z :: (List.ofFn a1 ++ List.ofFn a2)

/-- The lattice of the attack: the vectors `(e, z, a1, a2)` with `e = z * A - a * G` modulo `q` at the coordinates `S`. -/
def InLattice {n : Nat} (q : Int) (S : List Nat) (A1 A2 G11 G12 G21 G22 : Fin n → Int) (v : List Int) : Prop :=
  ∃ e1 e2 z a1 a2, v = attackVector S e1 e2 z a1 a2 ∧
    ∀ j ∈ S, pairCoord e1 e2 j ≡ pairCoord (z • A1 - ringMul a1 G11 - ringMul a2 G21) (z • A2 - ringMul a1 G12 - ringMul a2 G22) j [ZMOD q]

/-- The rounding of Saber: 8 times the integer nearest to `x / 8`, halves upwards, reduced modulo `p`. -/
def roundUp8 (p : Nat) (x : Int) : Int := 8 * ((x + 4) / 8 % p)

/-- 8 times the integer nearest to `x / 8`, halves downwards, reduced modulo `p`. -/
def roundDown8 (p : Nat) (x : Int) : Int := 8 * ((x + 3) / 8 % p)

/-- Square of the Euclidean length. -/
def sqLength (v : List Int) : Int := (v.map fun x => x ^ 2).sum

/-- `v` is the first of the shortest rows. -/
def FirstShortest (rows : List (List Int)) (v : List Int) : Prop :=
  ∃ k : Nat, rows[k]? = some v ∧ (∀ w ∈ rows, sqLength v ≤ sqLength w) ∧ ∀ k' < k, ∀ w, rows[k']? = some w → sqLength v < sqLength w

/-- The secret is found in `v`: `a1` and `a2` are the last `2 * n` coordinates of `v`, or of `-v` if coordinate `m` of `v` is negative. -/
def Carries {n : Nat} (m : Nat) (v : List Int) (a1 a2 : Fin n → Int) : Prop :=
  ∀ i : Fin n, (if v.getD m 0 < 0 then -1 else 1) * v.getD (m + 1 + i) 0 = a1 i ∧
    (if v.getD m 0 < 0 then -1 else 1) * v.getD (m + 1 + n + i) 0 = a2 i

/-- The secret shows up when the rows `M` are reduced with the block sizes `2, 4, ..., b`, each time starting from the last result. -/
def FoundWith {n : Nat} (red : Nat → List (List Int) → List (List Int)) (m : Nat) (a1 a2 : Fin n → Int) (M : List (List Int)) (b : Nat) : Prop :=
  ∃ b', 0 < b' ∧ 2 * b' ≤ b ∧ ∃ v, FirstShortest ((List.range b').foldl (fun M i => red (2 + 2 * i) M) M) v ∧ Carries m v a1 a2

end Saber.Spec

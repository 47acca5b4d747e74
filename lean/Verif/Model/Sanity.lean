import Verif.Spec.Planted
import Mathlib.LinearAlgebra.Matrix.Determinant.Basic
/-!
# `Scripts/Sage_Scripts/sanity_check.sage`

The script plants a secret in a lattice, runs lattice reduction and prints how often the secret is found.  Elements of
`R = ZZ[x]/(x^n+1)` are vectors of `n` integers (`n >= 1`), the product is `Spec.ringMul`.  `none` is a failed `assert`.  Random draws are
arguments; `M.LLL()` and `bkz(M,beta)` of fpylll are an arbitrary function `red` of `beta` and the rows of the matrix.  Times, the long
output line of every run (sanity_check.sage:205-208) and the distribution of the work over processes are not modelled.
-/
namespace Saber.Sanity

/-- `assert p` -/
def assert (p : Prop) [Decidable p] : Option Unit := if p then some () else none

/-- Elements of `R` (sanity_check.sage:40-41). -/
abbrev R (n : Nat) := Fin n → Int

variable {n : Nat}

/-- `reduce(r)` (sanity_check.sage:43-45) -/
def reduce (q : Nat) (r : R n) : R n := fun i => r i % q

/-- `divq(r)` (sanity_check.sage:49-52) -/
def divq (q : Nat) (r : R n) : Option (R n) := do
  assert (∀ i, r i % q = 0)
  pure fun i => r i / q

/-- `randomsubset(n,m)` (sanity_check.sage:54-57); `draw j` is the value of the `j`-th call of `randrange(2^64)`. -/
def randomsubset (n m : Nat) (draw : Nat → Nat) : List Nat :=
  let L := (List.range m).map (fun j => 2 * draw j + 1) ++ (List.range (n - m)).map (fun j => 2 * draw (m + j))
  let L := L.mergeSort (fun a b => decide (a ≤ b))
  (List.range n).filter fun j => decide (L.getD j 0 % 2 = 1)

/-- The arguments of `doit` (sanity_check.sage:61) without `rounding`. -/
structure Instance (n : Nat) where
  /-- `secreta1` -/
  a1 : R n
  /-- `secreta2` -/
  a2 : R n
  /-- `secrete1` -/
  e1 : R n
  /-- `secrete2` -/
  e2 : R n
  /-- `secretr1` -/
  r1 : R n
  /-- `secretr2` -/
  r2 : R n
  /-- `G11` -/
  G11 : R n
  /-- `G12` -/
  G12 : R n
  /-- `G21` -/
  G21 : R n
  /-- `G22` -/
  G22 : R n
  /-- `A1` -/
  A1 : R n
  /-- `A2` -/
  A2 : R n

/-- `Extract(e1,e2)` (sanity_check.sage:77-81); the caller has checked the entries of `S`. -/
def extract (S : List Nat) (e1 e2 : R n) : List Int :=
  S.map fun j => (List.ofFn e1 ++ List.ofFn e2).getD j 0

/-- `P(z,a1,a2,r1,r2)` (sanity_check.sage:83-91) -/
def P (q : Nat) (X : Instance n) (S : List Nat) : Int × R n × R n × R n × R n → List Int
  | (z, a1, a2, r1, r2) =>
    let e1 := z • X.A1 - Spec.ringMul a1 X.G11 - Spec.ringMul a2 X.G21 + (q : Int) • r1
    let e2 := z • X.A2 - Spec.ringMul a1 X.G12 - Spec.ringMul a2 X.G22 + (q : Int) • r2
    extract S e1 e2 ++ [z] ++ List.ofFn a1 ++ List.ofFn a2

/-- `R(x^i)` for `i < n` -/
def xpow (i : Nat) : R n := fun k => if k.val = i then 1 else 0

/-- `Cinbasis` (sanity_check.sage:96-106) -/
def cinbasis (S : List Nat) : List (Int × R n × R n × R n × R n) :=
  [(1, 0, 0, 0, 0)] ++ (List.range n).map (fun i => (0, xpow i, 0, 0, 0)) ++ (List.range n).map (fun i => (0, 0, xpow i, 0, 0)) ++
    S.map fun j => if j < n then (0, 0, 0, xpow j, 0) else (0, 0, 0, 0, xpow (j - n))

/-- `Coutbasis` (sanity_check.sage:108) -/
def coutbasis (q : Nat) (X : Instance n) (S : List Nat) : List (List Int) := (cinbasis S).map (P q X S)

/-- `matrix(rows)` for `d` rows of length `d` (sanity_check.sage:113) -/
def toMatrix (d : Nat) (rows : List (List Int)) : Matrix (Fin d) (Fin d) Int := fun i j => (rows.getD i []).getD j 0

/-- `v*v` for a vector -/
def norm2 (v : List Int) : Int := (v.map fun x => x * x).sum

/-- The shortest row, the first of them (sanity_check.sage:129-132). -/
def shortest (M : List (List Int)) : List Int :=
  M.tail.foldl (fun v w => if norm2 w < norm2 v then w else v) (M.headD [])

/-- What is read from the shortest row (sanity_check.sage:134-137): `a1` and `a2`. -/
def readSecret (m : Nat) (v : List Int) : R n × R n :=
  let v := if v.getD m 0 < 0 then v.map (fun x => -x) else v
  (fun i => v.getD (m + 1 + i) 0, fun i => v.getD (m + 1 + n + i) 0)

/-- An entry of `result` (sanity_check.sage:142) without the time. -/
structure Row where
  /-- `rounding` -/
  rounding : Bool
  /-- `m` -/
  m : Nat
  /-- `d` -/
  d : Nat
  /-- `beta` -/
  beta : Nat
  /-- `success` -/
  success : Bool
  deriving DecidableEq

/-- `range(a, b, 2)` -/
def range2 (a b : Nat) : List Nat := (List.range ((b - a + 1) / 2)).map fun i => a + 2 * i

/-- The loop over `beta` (sanity_check.sage:119-142): rows of `M`, `success`, remaining values of `beta`. -/
def betas (red : Nat → List (List Int) → List (List Int)) (X : Instance n) (rounding : Bool) (m : Nat) :
    List (List Int) → Bool → List Nat → List Row
  | _, _, [] => []
  | M, true, b :: bs => ⟨rounding, m, m + 1 + 2 * n, b, true⟩ :: betas red X rounding m M true bs
  | M, false, b :: bs =>
    let M := red b M
    let success := decide (readSecret m (shortest M) = (X.a1, X.a2))
    ⟨rounding, m, m + 1 + 2 * n, b, success⟩ :: betas red X rounding m M success bs

/-- One iteration of the loop over `m` (sanity_check.sage:68-142). -/
def doitM (red : Nat → List (List Int) → List (List Int)) (q : Nat) (X : Instance n) (rounding : Bool) (draw : Nat → Nat) (m : Nat) :
    Option (List Row) := do
  let d := m + 1 + 2 * n
  let S := randomsubset (2 * n) m draw
  assert (S = S.mergeSort (fun a b => decide (a ≤ b)))
  assert (S.length = m)
  assert (∀ j ∈ S, j < 2 * n)
  let secretvector := extract S X.e1 X.e2 ++ [1] ++ List.ofFn X.a1 ++ List.ofFn X.a2
  assert (secretvector = P q X S (1, X.a1, X.a2, X.r1, X.r2))
  assert (d = (cinbasis (n := n) S).length)
  assert (d = (coutbasis q X S).length)
  assert (|(toMatrix d (coutbasis q X S)).det| = (q : Int) ^ m)
  pure (betas red X rounding m (coutbasis q X S) false (range2 2 21))

/-- `doit` (sanity_check.sage:61-144); `draw m` are the draws of the iteration `m`. -/
def doit (red : Nat → List (List Int) → List (List Int)) (q : Nat) (rounding : Bool) (X : Instance n) (draw : Nat → Nat → Nat) :
    Option (List Row) := do
  for r in [X.G11, X.G12, X.G21, X.G22, X.A1, X.A2] do
    assert (∀ i, 0 ≤ r i)
    assert (∀ i, r i < q)
  let results ← (range2 n (2 * n + 1)).mapM fun m => doitM red q X rounding (draw m) m
  pure results.flatten

/-- `randomsmallcoeff()` (sanity_check.sage:147-148) with four draws of `randrange(2)` -/
def randomsmallcoeff (coin : Fin 4 → Fin 2) : Int := (∑ k, ((coin k).val : Int)) - 2

/-- `randomsmall()` (sanity_check.sage:150-151) -/
def randomsmall (coin : Fin n → Fin 4 → Fin 2) : R n := fun i => randomsmallcoeff (coin i)

/-- `randomq()` (sanity_check.sage:153-154) with draws of `randrange(q)` -/
def randomq {q : Nat} (g : Fin n → Fin q) : R n := fun i => ((g i).val : Int)

/-- `round8offset(r)` (sanity_check.sage:156-161) -/
def round8offset (r : R n) : Option (R n) := do
  let result : R n := fun i => (4 - r i) % 8 - 4
  assert (∀ i, -4 ≤ result i)
  assert (∀ i, result i ≤ 3)
  assert (∀ i, (r i + result i) % 8 = 0)
  pure result

/-- `noise8()` (sanity_check.sage:163-164) with draws of `randrange(-4,4)`, written as `-4 + e` -/
def noise8 (e : Fin n → Fin 8) : R n := fun i => -4 + ((e i).val : Int)

/-- The random draws for one input. -/
structure Draws (n q : Nat) where
  /-- coins of `secreta1` -/
  coin1 : Fin n → Fin 4 → Fin 2
  /-- coins of `secreta2` -/
  coin2 : Fin n → Fin 4 → Fin 2
  /-- `G11` -/
  g11 : Fin n → Fin q
  /-- `G12` -/
  g12 : Fin n → Fin q
  /-- `G21` -/
  g21 : Fin n → Fin q
  /-- `G22` -/
  g22 : Fin n → Fin q
  /-- `secrete1` without rounding -/
  e1 : Fin n → Fin 8
  /-- `secrete2` without rounding -/
  e2 : Fin n → Fin 8

/-- What `inputs()` yields for one input and one value of `rounding` (sanity_check.sage:168-195). -/
def input {q : Nat} (D : Draws n q) (rounding : Bool) : Option (Instance n) := do
  let secreta1 := randomsmall D.coin1
  let secreta2 := randomsmall D.coin2
  let G11 := randomq D.g11
  let G12 := randomq D.g12
  let G21 := randomq D.g21
  let G22 := randomq D.g22
  let Z1 := Spec.ringMul secreta1 G11 + Spec.ringMul secreta2 G21
  let Z2 := Spec.ringMul secreta1 G12 + Spec.ringMul secreta2 G22
  let (secrete1, secrete2) ←
    if rounding then do
      let secrete1 ← round8offset Z1
      let secrete2 ← round8offset Z2
      pure (secrete1, secrete2)
    else pure (noise8 D.e1, noise8 D.e2)
  let Z1 := Z1 + secrete1
  let Z2 := Z2 + secrete2
  let A1 := reduce q Z1
  let A2 := reduce q Z2
  let secretr1 ← divq q (Z1 - A1)
  let secretr2 ← divq q (Z2 - A2)
  pure ⟨secreta1, secreta2, secrete1, secrete2, secretr1, secretr2, G11, G12, G21, G22, A1, A2⟩

/-- The key of a row in `stats` (sanity_check.sage:210-212). -/
def Row.key (r : Row) : Nat × Nat × Nat × Bool := (r.m, r.d, r.beta, r.rounding)

/-- `stats[key]` (sanity_check.sage:210-212) -/
def stats (rows : List Row) (key : Nat × Nat × Nat × Bool) : List Bool :=
  (rows.filter fun r => decide (r.key = key)).map Row.success

/-- A summary line (sanity_check.sage:217-218): `m`, `d`, `beta`, `rounding`, the number `sum(S)` of successes and `len(S)`; the line shows
their quotient. -/
structure Summary where
  /-- `(m, d, beta, rounding)` -/
  key : Nat × Nat × Nat × Bool
  /-- `sum(S)` -/
  successes : Nat
  /-- `len(S)` -/
  numinputs : Nat

/-- The script (sanity_check.sage:200-218): draws of every input, draws of `randomsubset` for every input, `rounding` and `m`.  The summary
lines are in the order of first appearance of their keys instead of sorted. -/
def main (red : Nat → List (List Int) → List (List Int)) (n q numinputs : Nat) (D : Fin numinputs → Draws n q)
    (draw : Fin numinputs → Bool → Nat → Nat → Nat) : Option (List Summary) := do
  let results ← (List.finRange numinputs).mapM fun i => do
    let X ← input (D i) false
    let r ← doit red q false X (draw i false)
    let X ← input (D i) true
    let r' ← doit red q true X (draw i true)
    pure (r ++ r')
  let rows := results.flatten
  ((rows.map Row.key).dedup).mapM fun key => do
    let S := stats rows key
    assert (S.length = numinputs)
    pure ⟨key, S.count true, S.length⟩

end Saber.Sanity

import Mathlib.Data.Rat.Floor
import Mathlib.Algebra.Order.Ring.Rat
import Mathlib.Data.Nat.Factorial.Basic
import Mathlib.Analysis.SpecialFunctions.Log.Base
/-!
# Model of the parameter search (Scripts/Python_Scripts/select_params)

A dictionary is the list of its items in the order of insertion; the keys are integers.  Simplification: the values, floating point
numbers in the scripts, are rational numbers here, so the arithmetic is exact; exceptions are the value `none`.
-/
namespace Saber.Proba

/-- A dictionary from integers to numbers. -/
abbrev Dict := List (Int × Rat)

/-- The keys in the order of iteration (`for a in A`). -/
def keys (D : Dict) : List Int := D.map Prod.fst

/-- `D.get(x, 0)`; also `D[x]` where `x` is a key. -/
def get (D : Dict) (x : Int) : Rat :=
  match D with
  | [] => 0
  | (y, v) :: t => if y = x then v else get t x

/-- `D[x] = v`. -/
def set (D : Dict) (x : Int) (v : Rat) : Dict :=
  match D with
  | [] => [(x, v)]
  | (y, w) :: t => if y = x then (y, v) :: t else (y, w) :: set t x v

/-- `fac(x)` (math.factorial): an exception for negative arguments. -/
def fac (x : Int) : Option Nat := if x < 0 then none else some x.toNat.factorial

/-- `binomial` (proba_util.py:22-32). -/
def binomial (x y : Int) : Nat :=
  match fac x, fac y, fac (x - y) with
  | some a, some b, some c => a / b / c
  | _, _, _ => 0

/-- `centered_binomial_pdf` (proba_util.py:35-41). -/
def centered_binomial_pdf (k x : Int) : Rat := binomial (2 * k) (x + k) / 2 ^ (2 * k).toNat

/-- `range(a, b)`. -/
def range (a b : Int) : List Int := (List.range (b - a).toNat).map fun i : Nat => a + (i : Int)

/-- `build_centered_binomial_law` (proba_util.py:44-53). -/
def build_centered_binomial_law (k : Int) : Dict :=
  (range (-k) (k + 1)).foldl (fun D i => set D i (centered_binomial_pdf k i)) []

/-- `round(r)` of Python 3: the nearest integer, ties to the even one. -/
def pyRound (r : Rat) : Int :=
  let f := ⌊r⌋
  if r - f < 1 / 2 then f else if 1 / 2 < r - f then f + 1 else if f % 2 = 0 then f else f + 1

/-- `mod_switch` (proba_util.py:56-62). -/
def mod_switch (x q rq : Int) : Int := pyRound ((rq * x : Int) / (q : Rat)) % rq

/-- `mod_centered` (proba_util.py:65-73); the division by 2 is exact. -/
def mod_centered (x q : Int) : Int :=
  let a := x % q
  if (a : Rat) < (q : Rat) / 2 then a else a - q

/-- `build_mod_switching_error_law` (proba_util.py:76-90); the dictionary `V` is not used and left out. -/
def build_mod_switching_error_law (q rq : Int) : Dict :=
  (range 0 q).foldl (fun D x =>
    let y := mod_switch x q rq
    let z := mod_switch y rq q
    let d := mod_centered (x - z) q
    set D d (get D d + 1 / (q : Rat))) []

/-- `law_convolution` (proba_util.py:93-104). -/
def law_convolution (A B : Dict) : Dict :=
  (keys A).foldl (fun C a => (keys B).foldl (fun C b => set C (a + b) (get C (a + b) + get A a * get B b)) C) []

/-- `law_product` (proba_util.py:107-117). -/
def law_product (A B : Dict) : Dict :=
  (keys A).foldl (fun C a => (keys B).foldl (fun C b => set C (a * b) (get C (a * b) + get A a * get B b)) C) []

/-- `clean_dist` (proba_util.py:120-128). -/
def clean_dist (A : Dict) : Dict :=
  A.foldl (fun B xy => if 1 / 2 ^ 300 < xy.2 then set B xy.1 xy.2 else B) []

/-- `bin(i)[2:]` (proba_util.py:137), most significant digit first. -/
def bin (i : Nat) : List Bool :=
  if i < 2 then [i == 1] else bin (i / 2) ++ [i % 2 == 1]
termination_by i

/-- `iter_law_convolution` (proba_util.py:131-144). -/
def iter_law_convolution (A : Dict) (i : Nat) : Dict :=
  (bin i).foldl (fun D ch =>
    let D := law_convolution D D
    let D := clean_dist D
    if ch then
      let D := law_convolution D A
      clean_dist D
    else D) [(0, 1)]

/-- `convolution_remove_dependency` (proba_util.py:146-159); `int(q/p)` is `q / p` rounded towards zero, and a division by 0 is an exception. -/
def convolution_remove_dependency (A B : Dict) (q p : Int) : Option Dict :=
  let maxa := q.tdiv p
  let normalizer := (keys A).foldl (fun N a => set N (a % maxa) (get N (a % maxa) + get A a)) []
  (keys A).foldlM (fun C a => (keys B).foldlM (fun C b =>
    let c := a - b
    if c % maxa = 0 then
      if get normalizer (a % maxa) = 0 then none
      else some (set C c (get C c + get A a * get B b / get normalizer (a % maxa)))
    else some C) C) []

/-- `tail_probability` (proba_util.py:161-173); `max` of an empty dictionary is an exception. -/
def tail_probability (D : Dict) (t : Rat) : Option Rat :=
  match (keys D).max? with
  | none => none
  | some ma =>
    if (ma : Rat) ≤ t then some 0
    else some ((range ⌈t⌉ ma).reverse.foldl (fun s i => s + (get D i + get D (-i))) 0)

/-- `distmean` (proba_util.py:179-184). -/
def distmean (dist : Dict) : Rat := (keys dist).foldl (fun res i => res + get dist i * i) 0

/-- `distvariance` (proba_util.py:187-194). -/
def distvariance (dist : Dict) : Rat :=
  let mean := distmean dist
  (keys dist).foldl (fun res i => res + get dist i * ((i : Rat) - mean) ^ 2) 0

/-- What `search_params` prints about a parameter set (select_params.py:70-95): `logp`, `logT`, the sizes of the public key and of the ciphertext. -/
structure Row where
  logp : Nat
  logT : Nat
  pk : Rat
  send : Rat

/-- The failure calculation of `search_params` (select_params.py:35-59) before the logarithm. -/
def failure (D_s : Dict) (q k n logp logT : Nat) : Option Rat :=
  let p := 2 ^ logp
  let D_e := build_mod_switching_error_law q p
  let se := law_product D_s D_e
  let se2 := iter_law_convolution se (k * n)
  match convolution_remove_dependency se2 se2 q p with
  | none => none
  | some se2 =>
    let T := 2 ^ logT
    let e2 := build_mod_switching_error_law q T
    let D := law_convolution se2 e2
    tail_probability D ((q : Rat) / 4)

/-- The number that is compared with `maxerror` (select_params.py:59-61). -/
noncomputable def logFailure (prob : Rat) : Real := if prob ≠ 0 then Real.logb 2 ((256 * prob : Rat) : Real) else 0

open Classical in
/-- The inner loop of `search_params` (select_params.py:52-98) over the remaining values of `logT`. -/
noncomputable def searchT (D_s : Dict) (q k n logp : Nat) (maxerror : Int) : List Nat → Option (List Row)
  | [] => some []
  | logT :: t =>
    match failure D_s q k n logp logT with
    | none => none
    | some prob =>
      if logFailure prob > maxerror then searchT D_s q k n logp maxerror t
      else some [⟨logp, logT, ((logp * k * n : Nat) : Rat) / 8 + 32, ((logp * k * n : Nat) : Rat) / 8 + ((n * logT : Nat) : Rat) / 8⟩]

/-- The outer loop of `search_params` (select_params.py:34-98) over the remaining values of `logp`.  The security estimate, which is made by a
library that is not in the repository, is the parameter `sec`. -/
noncomputable def searchP (sec : Nat → Rat) (D_s : Dict) (q k n : Nat) (minsec : Rat) (maxerror : Int) : List Nat → Option (List Row)
  | [] => some []
  | logp :: t =>
    if sec logp < minsec then some []
    else do
      let r ← searchT D_s q k n logp maxerror (((List.range (2 * logp - Nat.log 2 q + 1)).drop 1))
      let rest ← searchP sec D_s q k n minsec maxerror t
      return r ++ rest

/-- `search_params` (select_params.py:30-98): the rows that are printed. -/
noncomputable def search_params (sec : Nat → Rat) (D_s : Dict) (q k n : Nat) (minsec : Rat) (maxerror : Int) : Option (List Row) :=
  searchP sec D_s q k n minsec maxerror ((List.range (Nat.log 2 q)).drop 10)

end Saber.Proba

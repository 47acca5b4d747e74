import sys; sys.path.insert(0,'/root/tools')
from avx2lean import body,lst
O='/verif/lean/Verif/Model/Avx/'
def decl(vars_,arrs):
    s=''
    for i,v in enumerate(vars_): s+=f'abbrev {v} : Ex := .v {i}\n'
    for i,a in enumerate(arrs): s+=f'abbrev {a} : Nat → Ex := .ix {i}\n'
    return s
# matrix.c
mv=[f'r{i}' for i in range(12)]+['temp','temp0','temp1','temp2']
m=body('matrix.c',22,125)
open(O+'Matrix.lean','w').write(f'''import Verif.Model.Avx.Machine
/-!
# `AVX_Implementation_KEM/polymul/matrix.c`

The body is transcribed by tools/avx2lean.py.
-/
namespace Saber.Avx

namespace Matrix
/-! The variables and the argument of `transpose_n1`. -/
{decl(mv,['M'])}
/-- The body of `transpose_n1` (matrix.c:14-125). -/
def body : List Stmt :=
  {lst(m)}
end Matrix

/-- `transpose_n1` (matrix.c:14-125); the new content of `M` is returned. -/
def transpose_n1 (M : List Vec) : CM (List Vec) := do
  let r ← run 16 [M] Matrix.body
  rd r 0

end Saber.Avx
''')
sv=[f'a{i}' for i in range(8)]+[f'b{i}' for i in range(8)]+['temp']
acc=body('scm_avx.c',19,407); n2=body('scm_avx.c',420,750)
open(O+'Scm.lean','w').write(f'''import Verif.Model.Avx.Machine
/-!
# `AVX_Implementation_KEM/polymul/scm_avx.c`

Sixteen products of polynomials with 16 coefficients, one in each lane.  The bodies are transcribed by tools/avx2lean.py.
-/
namespace Saber.Avx

/-- `mul_add` (scm_avx.c:6-8) -/
abbrev mul_add (a b c : Ex) : Ex := add (mullo a b) c

namespace Scm
/-! The variables and the arguments of the two functions. -/
{decl(sv,['a','b','c_avx'])}
/-- The body of `schoolbook_avx_new3_acc` (scm_avx.c:11-409). -/
def acc : List Stmt :=
  {lst(acc)}

/-- The body of `schoolbook_avx_new2` (scm_avx.c:413-752). -/
def new2 : List Stmt :=
  {lst(n2)}
end Scm

/-- `schoolbook_avx_new3_acc` (scm_avx.c:11-409); the new content of `c_avx` is returned. -/
def schoolbook_avx_new3_acc (a b c_avx : List Vec) : CM (List Vec) := do
  let r ← run 17 [a, b, c_avx] Scm.acc
  rd r 2

/-- `schoolbook_avx_new2` (scm_avx.c:413-752); the new content of `c_avx` is returned. -/
def schoolbook_avx_new2 (a b c_avx : List Vec) : CM (List Vec) := do
  let r ← run 17 [a, b, c_avx] Scm.new2
  rd r 2

end Saber.Avx
''')
rv=[f'r{i}_avx' for i in range(7)]+['temp_avx']
b1=body('toom-cook_4way.c',28,157); b2=body('toom-cook_4way.c',228,334)
kv=[f'res_avx{i}' for i in range(8)]+['temp','c6_avx','c7_avx','c8_avx','c20_avx','c21_avx','c22_avx','c23_avx','c24_avx']
ki=body('toom-cook_4way.c',351,815)
e1=body('toom-cook_4way.c',844,866); e2=body('toom-cook_4way.c',886,908)
ti=body('toom-cook_4way.c',946,986); 
t1=body('toom-cook_4way.c',989,995); t2=body('toom-cook_4way.c',998,1004)
GC={'int45_avx':'(.set1 45)','inv3_avx':'(.set1 43691)','inv9_avx':'(.set1 36409)','int30_avx':'(.set1 30)','inv15_avx':'(.set1 61167)','int0_avx':'(.set1 0)'}
open(O+'Toom.lean','w').write(f'''import Verif.Model.Avx.Matrix
import Verif.Model.Avx.Scm
/-!
# `AVX_Implementation_KEM/polymul/toom-cook_4way.c`

The sequences of assignments are transcribed by tools/avx2lean.py.  `small_len_avx` is 4, `SCM_SIZE` is 16, `AVX_N1` is 16 (consts.h:3-16).
The loops are unrolled: their bodies are functions of the loop counter.
-/
namespace Saber.Avx

namespace Eval
{decl(rv[:4],['a','a_bucket'])}
/-- The Karatsuba evaluation in `batch_64coefficient_multiplications_new` (toom-cook_4way.c:28-157). -/
def batch : List Stmt :=
  {lst(b1)}
end Eval

namespace KEval
{decl(rv[:4],['b','b_bucket'])}
/-- The evaluation in `KARA_eval` (toom-cook_4way.c:228-334). -/
def body : List Stmt :=
  {lst(b2)}
end KEval

/-- The calls `transpose_n1(m); transpose_n1(m+16); ...`, `n` times (toom-cook_4way.c:170-173, 338-341 and 929-939). -/
def transposes (n : Nat) (m : List Vec) : CM (List Vec) :=
  loop n m fun i m => onSlice m (16 * i) transpose_n1

/-- `batch_64coefficient_multiplications_new` (toom-cook_4way.c:16-220); the new content of `c_bucket` is returned. -/
def batch_64coefficient_multiplications_new (a b_bucket c_bucket : List Vec) (f : Nat) : CM (List Vec) := do
  let r ← run 4 [a, uninitVecs 91 64] Eval.batch
  let a_bucket ← rd r 1
  let a_bucket ← transposes 4 a_bucket
  if f = 0 then
    let c_bucket ← onSlice c_bucket 0 fun c => schoolbook_avx_new2 a_bucket b_bucket c
    let c_bucket ← onSlice c_bucket 32 fun c => schoolbook_avx_new2 (a_bucket.drop 16) (b_bucket.drop 16) c
    let c_bucket ← onSlice c_bucket 64 fun c => schoolbook_avx_new2 (a_bucket.drop 32) (b_bucket.drop 32) c
    onSlice c_bucket 96 fun c => schoolbook_avx_new2 (a_bucket.drop 48) (b_bucket.drop 48) c
  else
    let c_bucket ← onSlice c_bucket 0 fun c => schoolbook_avx_new3_acc a_bucket b_bucket c
    let c_bucket ← onSlice c_bucket 32 fun c => schoolbook_avx_new3_acc (a_bucket.drop 16) (b_bucket.drop 16) c
    let c_bucket ← onSlice c_bucket 64 fun c => schoolbook_avx_new3_acc (a_bucket.drop 32) (b_bucket.drop 32) c
    onSlice c_bucket 96 fun c => schoolbook_avx_new3_acc (a_bucket.drop 48) (b_bucket.drop 48) c

/-- `KARA_eval` (toom-cook_4way.c:222-342); the new content of `b_bucket` is returned. -/
def KARA_eval (b b_bucket : List Vec) : CM (List Vec) := do
  let r ← run 4 [b, b_bucket] KEval.body
  let b_bucket ← rd r 1
  transposes 4 b_bucket

namespace KInterpol
{decl(kv,['c_bucket']+[f'result_final{i}' for i in range(7)])}
/-- The body of `KARA_interpol` (toom-cook_4way.c:344-825). -/
def body : List Stmt :=
  {lst(ki)}
end KInterpol

/-- `KARA_interpol` (toom-cook_4way.c:344-825); `w` are the arrays `result_final0`, ..., `result_final6`, whose new contents are returned. -/
def KARA_interpol (c_bucket : List Vec) (w : List (List Vec)) : CM (List (List Vec)) := do
  let r ← run 17 (c_bucket :: w) KInterpol.body
  .ok r.tail

namespace TEval
{decl(rv[:7],['a_avx','aw_avx'])}
/-- The body of the loop in `toom_cook_4way_avx_n1` (toom-cook_4way.c:844-866). -/
def step (i : Nat) : List Stmt :=
  {lst(e1)}

/-- The loop in `toom_cook_4way_avx_n1` (toom-cook_4way.c:843-867). -/
def body : List Stmt := (List.range 4).flatMap step
end TEval

/-- `toom_cook_4way_avx_n1` (toom-cook_4way.c:827-875); the new content of `c_bucket` is returned. -/
def toom_cook_4way_avx_n1 (a_avx b_bucket c_bucket : List Vec) (f : Nat) : CM (List Vec) := do
  let r ← run 7 [a_avx, uninitVecs 92 28] TEval.body
  let aw_avx ← rd r 1
  batch_64coefficient_multiplications_new aw_avx b_bucket c_bucket f

namespace TEvalB
{decl(rv[:7],['b_avx','bw_avx'])}
/-- The body of the loop in `TC_eval` (toom-cook_4way.c:886-908). -/
def step (i : Nat) : List Stmt :=
  {lst(e2)}

/-- The loop in `TC_eval` (toom-cook_4way.c:884-909). -/
def body : List Stmt := (List.range 4).flatMap step
end TEvalB

/-- `TC_eval` (toom-cook_4way.c:877-913); the new content of `b_bucket` is returned. -/
def TC_eval (b_avx b_bucket : List Vec) : CM (List Vec) := do
  let r ← run 7 [b_avx, uninitVecs 93 28] TEvalB.body
  let bw_avx ← rd r 1
  KARA_eval bw_avx b_bucket

namespace TInterpol
{decl(rv,[f'w{i}_avx' for i in range(1,8)]+['res_avx_output','res_avx'])}
/-- `int45_avx` after `load_values` (SABER_indcpa.c:40-71) -/
abbrev int45_avx : Ex := .set1 45
/-- `inv3_avx` after `load_values` (SABER_indcpa.c:40-71) -/
abbrev inv3_avx : Ex := .set1 43691
/-- `inv9_avx` after `load_values` (SABER_indcpa.c:40-71) -/
abbrev inv9_avx : Ex := .set1 36409
/-- `int30_avx` after `load_values` (SABER_indcpa.c:40-71) -/
abbrev int30_avx : Ex := .set1 30
/-- `inv15_avx` after `load_values` (SABER_indcpa.c:40-71) -/
abbrev inv15_avx : Ex := .set1 61167
/-- `int0_avx` after `load_values` (SABER_indcpa.c:40-71) -/
abbrev int0_avx : Ex := .set1 0

/-- The body of the loop in `TC_interpol` (toom-cook_4way.c:946-1006), for `i < small_len_avx` and for larger `i`. -/
def step (i : Nat) : List Stmt :=
  {lst(ti)} ++
  if i < 4 then
    {lst(t1,4)}
  else
    {lst(t2,4)}

/-- The loops in `TC_interpol` (toom-cook_4way.c:944-1013); the second one is the reduction modulo `X^256 + 1`. -/
def body : List Stmt := (List.range 8).flatMap step ++ (List.range 16).map fun i =>
  res_avx i ≔ sub (res_avx_output i) (res_avx_output (i + 16))
end TInterpol

/-- `TC_interpol` (toom-cook_4way.c:916-1015); the new contents of `c_bucket` and `res_avx` are returned. -/
def TC_interpol (c_bucket res_avx : List Vec) : CM (List Vec × List Vec) := do
  let c_bucket ← transposes 8 c_bucket
  let w ← KARA_interpol c_bucket ((List.range 7).map fun i => uninitVecs (94 + i) 8)
  let r ← run 8 (w ++ [uninitVecs 101 32, res_avx]) TInterpol.body
  let res_avx ← rd r 8
  .ok (c_bucket, res_avx)

end Saber.Avx
''')

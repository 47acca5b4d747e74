#!/usr/bin/env python3
"""Transcribe keccak4x/KeccakP-1600-times4-SIMD256.c (24-round permutation) to Lean.
usage: keccak4x2lean.py /repo/Variants/SaberX4_avx2 > lean/Verif/Model/X4/Keccak.lean"""
import re, sys
root = sys.argv[1]
src = open(root + '/keccak4x/KeccakP-1600-times4-SIMD256.c').read()
unr = open(root + '/keccak4x/KeccakP-1600-unrolling.macros').read()
cfg = open(root + '/keccak4x/SIMD256-config.h').read()
assert 'KeccakP1600times4_fullUnrolling' in cfg and 'KeccakP1600times4_useAVX2' in cfg
L = src.split('\n')

def macro(text, head):
    ls = text.split('\n')
    i = next(k for k, l in enumerate(ls) if l.startswith('#define ' + head))
    body = []
    j = i
    while ls[j].rstrip().endswith('\\'):
        j += 1
        body.append(ls[j].rstrip().rstrip('\\').strip())
    return i + 1, j + 1, [b for b in body if b]

names = [c + v for c in 'bgkms' for v in 'aeiou']
def expr(e):
    e = e.strip()
    m = re.match(r'^(XOR256|ANDnu256)\((.*)\)$', e)
    if m:
        d = 0
        for k, ch in enumerate(m.group(2)):
            if ch == '(': d += 1
            if ch == ')': d -= 1
            if ch == ',' and d == 0:
                return '(%s %s %s)' % (m.group(1), expr(m.group(2)[:k]), expr(m.group(2)[k+1:]))
    m = re.match(r'^CONST256_64\(KeccakF1600RoundConstants\[i\]\)$', e)
    if m: return '(CONST256_64 rc)'
    assert re.match(r'^\w+$', e), e
    return e
def top(e):
    e = expr(e)
    return e[1:-1] if e.startswith('(') else e

def stmts(body):
    out = []
    for b in body:
        for s in b.split(';'):
            s = s.strip().replace('A##', 'A').replace('E##', 'E')
            if not s: continue
            m = re.match(r'^ROL64in256\((\w+), (\w+), (\d+)\)$', s)
            if m: out.append((m.group(1), 'ROL64in256 %s %s' % m.group(2, 3))); continue
            m = re.match(r'^(ROL64in256_8|ROL64in256_56)\((\w+), (\w+)\)$', s)
            if m: out.append((m.group(2), '%s %s' % m.group(1, 3))); continue
            m = re.match(r'^XOReq256\((\w+), (.*)\)$', s)
            if m: out.append((m.group(1), 'XOR256 %s %s' % (m.group(1), expr(m.group(2))))); continue
            m = re.match(r'^(\w+) = (.*)$', s)
            assert m, s
            out.append((m.group(1), top(m.group(2))))
    return out

# every E variable is assigned before it is read, and the A variables are not read after the macro
def check(st):
    seen = set()
    for d, e in st:
        for x in re.findall(r'\bE[bgkms][aeiou]\b', e): assert x in seen, x
        seen.add(d)
    for n in names: assert 'E' + n in seen

p = print
p('''import Verif.Model.Fips202
/-!
# `Variants/SaberX4_avx2/keccak4x`: Keccak-p[1600] on four states at once

Generated by `tools/keccak4x2lean.py` from `KeccakP-1600-times4-SIMD256.c` and `KeccakP-1600-unrolling.macros`: the macros are
transcribed statement by statement.  A `__m256i` holds four 64-bit lanes, lane 0 in the low bits.  A macro call
`thetaRhoPiChiIotaPrepareTheta(i, A, E)` reads the variables `A..` and `C.` and assigns all the variables `E..` and `C.`; it also
changes the variables `A..`, which are assigned again before they are read (checked by the script).
-/
namespace Saber.X4

/-- `V256` (keccak4x/KeccakP-1600-times4-SIMD256.c:35): the four 64-bit lanes of a `__m256i`. -/
abbrev V256 := Fin 4 → BitVec 64

/-- `XOR256` (keccak4x/KeccakP-1600-times4-SIMD256.c:54) -/
def XOR256 (a b : V256) : V256 := fun l => a l ^^^ b l
/-- `ANDnu256` (keccak4x/KeccakP-1600-times4-SIMD256.c:40) -/
def ANDnu256 (a b : V256) : V256 := fun l => ~~~(a l) &&& b l
/-- `CONST256_64` (keccak4x/KeccakP-1600-times4-SIMD256.c:42) -/
def CONST256_64 (a : BitVec 64) : V256 := fun _ => a
/-- `ROL64in256` (keccak4x/KeccakP-1600-times4-SIMD256.c:46) -/
def ROL64in256 (a : V256) (o : Nat) : V256 := fun l => (a l <<< o) ||| (a l >>> (64 - o))

/-- Byte `k` of the 32 bytes of a `__m256i`. -/
def byteOf (a : V256) (k : Nat) : Byte := (a (Fin.ofNat 4 (k / 8)) >>> (8 * (k % 8))).setWidth 8

/-- Byte `k` of `_mm256_shuffle_epi8(a, ctl)`: 0 if the top bit of the control byte is set, else the byte of the same 128-bit
half of `a` that the low four bits of the control byte select. -/
def shuffleByte (a ctl : V256) (k : Nat) : Byte :=
  let c := byteOf ctl k
  if c.msb then 0 else byteOf a (16 * (k / 16) + c.toNat % 16)

/-- `_mm256_shuffle_epi8` -/
def shuffle_epi8 (a ctl : V256) : V256 := fun l =>
  (shuffleByte a ctl (8 * l + 7) ++ shuffleByte a ctl (8 * l + 6) ++ shuffleByte a ctl (8 * l + 5) ++ shuffleByte a ctl (8 * l + 4) ++
    shuffleByte a ctl (8 * l + 3) ++ shuffleByte a ctl (8 * l + 2) ++ shuffleByte a ctl (8 * l + 1) ++ shuffleByte a ctl (8 * l) : BitVec 64)
''')
for nm, ln in (('rho8', 49), ('rho56', 50)):
    assert L[ln-1].startswith('static const UINT64 ' + nm), L[ln-1]
    vs = re.findall(r'0x[0-9A-F]+', L[ln-1])
    p('/-- `%s` (keccak4x/KeccakP-1600-times4-SIMD256.c:%d) -/' % (nm, ln))
    p('def %s : V256 := fun l => ([%s] : List (BitVec 64)).getD l 0' % (nm, ', '.join(vs)))
p('''
/-- `ROL64in256_8` (keccak4x/KeccakP-1600-times4-SIMD256.c:47) -/
def ROL64in256_8 (a : V256) : V256 := shuffle_epi8 a rho8
/-- `ROL64in256_56` (keccak4x/KeccakP-1600-times4-SIMD256.c:48) -/
def ROL64in256_56 (a : V256) : V256 := shuffle_epi8 a rho56
''')
a = next(k for k, l in enumerate(L) if 'KeccakF1600RoundConstants[24]' in l)
rc = [re.search(r'0x[0-9a-f]+', L[a+1+k]).group(0) for k in range(24)]
p('/-- `KeccakF1600RoundConstants` (keccak4x/KeccakP-1600-times4-SIMD256.c:%d-%d) -/' % (a+1, a+25))
p('def KeccakF1600RoundConstants : List (BitVec 64) :=\n  [' + ',\n   '.join(rc) + ']\n')
p('/-- The variables `Aba .. Asu` or `Eba .. Esu` (`declareABCDE`, keccak4x/KeccakP-1600-times4-SIMD256.c:444-462). -/')
p('structure Vars where')
for n in names: p('  %s : V256' % n)
p('')
p('/-- The variables `Ca .. Cu` (`declareABCDE`). -/')
p('structure Cols where')
for v in 'aeiou': p('  %s : V256' % v)
p('')
i, j, b = macro(src, 'prepareTheta ')
p('/-- `prepareTheta` (keccak4x/KeccakP-1600-times4-SIMD256.c:%d-%d) -/' % (i, j))
p('def prepareTheta (A : Vars) : Cols :=')
for n in names: p('  let A%s := A.%s' % (n, n))
for d, e in stmts(b): p('  let %s := %s' % (d, e))
p('  ⟨Ca, Ce, Ci, Co, Cu⟩\n')
i, j, b = macro(src, 'thetaRhoPiChiIotaPrepareTheta')
span1 = (i, j)
st = stmts(b); check(st)
p('/-- `thetaRhoPiChiIotaPrepareTheta` (keccak4x/KeccakP-1600-times4-SIMD256.c:%d-%d); `rc` is `KeccakF1600RoundConstants[i]`. -/' % (i, j))
p('def thetaRhoPiChiIotaPrepareTheta (rc : BitVec 64) (A : Vars) (C : Cols) : Vars × Cols :=')
for n in names: p('  let A%s := A.%s' % (n, n))
for v in 'aeiou': p('  let C%s := C.%s' % (v, v))
for d, e in st: p('  let %s := %s' % (d, e))
p('  (⟨' + ', '.join('E' + n for n in names) + '⟩, ⟨Ca, Ce, Ci, Co, Cu⟩)\n')
i, j, b = macro(src, 'thetaRhoPiChiIota(')
span2 = (i, j)
st = stmts(b); check(st)
p('/-- `thetaRhoPiChiIota` (keccak4x/KeccakP-1600-times4-SIMD256.c:%d-%d); `rc` is `KeccakF1600RoundConstants[i]`. -/' % (i, j))
p('def thetaRhoPiChiIota (rc : BitVec 64) (A : Vars) (C : Cols) : Vars :=')
for n in names: p('  let A%s := A.%s' % (n, n))
for v in 'aeiou': p('  let C%s := C.%s' % (v, v))
for d, e in st: p('  let %s := %s' % (d, e))
p('  ⟨' + ', '.join('E' + n for n in names) + '⟩\n')
# rounds24
i, j, b = macro(unr, 'rounds24')
p('''/-- A call `thetaRhoPiChiIotaPrepareTheta(i, X, Y)` (keccak4x/KeccakP-1600-times4-SIMD256.c:%d-%d): the variables `X..` and `C.` before, the
variables `Y..` and `C.` after. -/
def roundPrepare (i : Nat) (X : Vars × Cols) : CM (Vars × Cols) := do
  let rc ← rd KeccakF1600RoundConstants i
  pure (thetaRhoPiChiIotaPrepareTheta rc X.1 X.2)

/-- A call `thetaRhoPiChiIota(i, X, Y)` (keccak4x/KeccakP-1600-times4-SIMD256.c:%d-%d). -/
def roundLast (i : Nat) (X : Vars × Cols) : CM Vars := do
  let rc ← rd KeccakF1600RoundConstants i
  pure (thetaRhoPiChiIota rc X.1 X.2)
''' % (span1 + span2))
p('/-- `rounds24` (keccak4x/KeccakP-1600-unrolling.macros:%d-%d, with `FullUnrolling`) -/' % (i, j))
p('def rounds24 (A : Vars) : CM Vars := do')
last = None
for s in b:
    if s == 'prepareTheta': p('  let A := (A, prepareTheta A)'); continue
    m = re.match(r'^(\w+)\( *(\d+), ([AE]), ([AE])\)$', s)
    assert m, s
    f = {'thetaRhoPiChiIotaPrepareTheta': 'roundPrepare', 'thetaRhoPiChiIota': 'roundLast'}[m.group(1)]
    p('  let %s ← %s %s %s' % (m.group(4), f, m.group(2), m.group(3)))
    last = m.group(4)
assert last == 'A'
p('  pure A\n')
i, j, b = macro(src, 'copyFromState(')
idx = []
for s in b:
    m = re.match(r'^X##(\w\w) = LOAD256\(state\[ *(\d+)\]\);$', s); assert m, s
    idx.append((m.group(1), int(m.group(2))))
i2, j2, b2 = macro(src, 'copyToState(')
k = next(k for k, l in enumerate(L) if l.startswith('void KeccakP1600times4_PermuteAll_24rounds'))
e = next(q for q in range(k, len(L)) if L[q].startswith('}'))
body = [x.strip() for x in L[k+2:e]]
assert [x for x in body if x and not x.startswith('#') and 'unsigned int i' not in x] == ['V256 *statesAsLanes = (V256 *)states;', 'declareABCDE', 'copyFromState(A, statesAsLanes)', 'rounds24', 'copyToState(statesAsLanes, A)'], body
p('/-- `KeccakP1600times4_PermuteAll_24rounds` (keccak4x/KeccakP-1600-times4-SIMD256.c:%d-%d) with `copyFromState` (%d-%d) and\n`copyToState` (%d-%d) -/' % (k+1, e+1, i, j, i2, j2))
p('def KeccakP1600times4_PermuteAll_24rounds (states : List V256) : CM (List V256) := do')
for n, x in idx: p('  let A%s ← rd states %d' % (n, x))
p('  let A ← rounds24 ⟨' + ', '.join('A' + n for n in names) + '⟩')
for s in b2:
    m = re.match(r'^STORE256\(state\[ *(\d+)\], X##(\w\w)\);$', s); assert m, s
    p('  let states ← wr states %s A.%s' % m.groups())
p('  pure states\n')
p('end Saber.X4')

#!/usr/bin/env python3
"""Translate the shift statements of SaberX4's packing functions to Lean (Verif/Model/X4/Shifts.lean).
usage: x4pack.py /repo/Variants/SaberX4_avx2 > Shifts.lean
Each statement  dst[base + r] = e  with e built from _mm256_{or,and}_si256, _mm256_{srli,slli}_epi32, the masks avx_epi32_XX and
elements src[base' + k] becomes entry r of a list; src[base' + k] becomes `x k`."""
import re, sys
root = sys.argv[1]
def parse(s):
    s = s.strip()
    while s.startswith('(') and match(s, 0) == len(s) - 1: s = s[1:-1].strip()
    m = re.match(r'_mm256_(or|and)_si256\s*\(', s) or re.match(r'_mm256_(srli|slli)_epi32\s*\(', s)
    if m:
        o = s.index('(')
        assert match(s, o) == len(s) - 1, s
        a, b = split(s[o + 1:-1])
        if m.group(1) in ('or', 'and'): return '(%s %s %s)' % (m.group(1) + '8', parse(a), parse(b))
        return '(%s %s %d)' % (m.group(1) + '8', parse(a), int(b.strip()))
    m = re.fullmatch(r'avx_epi32_([0-9a-f]{2})', s)
    if m: return '(set1 0x%s)' % m.group(1)
    m = re.fullmatch(r'avx_(?:data|bytes)\[(.*?)\+\s*(\d+)\s*\]', s)
    if m: 
        bases.add(re.sub(r'\s+', '', m.group(1)))
        return '(x %s)' % m.group(2)
    raise SystemExit('cannot parse ' + s)
def match(s, i):
    d = 0
    for k in range(i, len(s)):
        d += (s[k] == '(') - (s[k] == ')')
        if d == 0: return k
def split(s):
    d = 0
    for k, c in enumerate(s):
        d += (c == '(') - (c == ')')
        if c == ',' and d == 0: return s[:k], s[k + 1:]
def block(fn, name, start, n, arr, out):
    global bases
    bases = set()
    lines = open(root + '/' + fn).read().split('\n')
    txt = '\n'.join(lines)
    pos = txt.index('void ' + start + '(')
    pos = txt.index('Do the shifts', pos)
    end = txt.index('Store back', pos)
    body = txt[pos:end]
    st = re.findall(r'(' + out + r')\[([^\]]*?)\+\s*(\d+)\s*\]\s*=(.*?);', body, flags=re.S)
    assert [int(x[2]) for x in st] == list(range(n)), st
    f = txt[:pos + body.index(out + '[')].count('\n') + 1
    l = txt[:pos + body.rindex(';')].count('\n') + 1
    es = [parse(x[3]) for x in st]
    assert len(bases) == 1, bases
    print('\n/-- The assignments to `%s` in `%s` (%s:%d-%d); `x k` is `%s[%s + k]`. -/' % (out, start, fn, f, l, arr, bases.pop()))
    print('def %s (x : Nat → V8) : List V8 :=\n  [ ' % name + ',\n    '.join(e[1:-1] for e in es) + ' ]')
print('''import Verif.Model.X4.Vec
/-!
# The shift statements of SaberX4's packing functions

Generated by `tools/x4pack.py` from `Variants/SaberX4_avx2/pack_unpack.c` and `SABER_indcpa.c`, statement by statement.
-/
namespace Saber.X4''')
block('pack_unpack.c', 'p2BSX4Blk', 'POLVECp2BSX4', 5, 'avx_data', 'avx_bytes')
block('pack_unpack.c', 'q2BSX4Blk', 'POLVECq2BSX4', 13, 'avx_data', 'avx_bytes')
block('pack_unpack.c', 'BS2pX4Blk', 'BS2POLVECpX4', 4, 'avx_bytes', 'avx_data')
block('pack_unpack.c', 'BS2qX4Blk', 'BS2POLVECqX4', 8, 'avx_bytes', 'avx_data')
block('SABER_indcpa.c', 'BS2POLq4xBlk', 'BS2POLq4x', 8, 'avx_bytes', 'avx_data')
print('\nend Saber.X4')

#!/usr/bin/env python3
"""Repeats the functions of the models over the semantics with events (Model/Leak/Monad.lean).

Every definition of the listed model files whose result type is `CM ...` is copied with `CM` replaced by `LM`; inside of the
namespace `Saber.Leak` the names of the operations and of the other functions then refer to the versions with events.  A test of a
condition gets a `branch` event; calls of `randombytes` go through `random`.  Pure definitions are not copied.
Run in /verif: python3 tools/leakgen.py
"""
import re

TARGETS = [
    dict(out='Ref', title='The reference implementation with events', src=['Pack', 'PolyMul', 'Cbd', 'Fips202', 'Verify', 'Poly', 'Indcpa', 'Kem'],
         ns='Saber.Leak', opens=[], imports=['Verif.Model.Kem', 'Verif.Model.Leak.Monad'], skip=['rdN'],
         sub=[], extra='''/-- Call of `randombytes`; what the generator itself does is not observed. -/
def random {σ : Type} (rb : RandomBytes σ) (buf : List Byte) (off n : Nat) (st : σ) : LM (List Byte × σ) := ⟨[.random off n], rb buf off n st⟩

'''),
    dict(out='U', title='The uSaber and 90s variants with events', src=['U/Aes', 'U/Sha2', 'U/Poly', 'U/Indcpa', 'U/Kem'],
         ns='Saber.Leak.U', opens=['Saber.U'], imports=['Verif.Model.U.Kem', 'Verif.Model.Leak.Ref'], skip=[],
         sub=[(r'\(h1 c\)', '(Saber.U.h1 c)'), (r'\(h2 c\)', '(Saber.U.h2 c)'), (r'Saber\.(POLq2BS|BS2POLq) ', r'Leak.\1 '),
              (r'\bKS\b', 'Saber.U.Aes.KS')], extra=''),
    dict(out='M0', title='The Cortex-M0 implementation with events', src=['M0/Fips202', 'M0/Pack', 'M0/PolyMul', 'M0/Poly', 'M0/Indcpa'],
         ns='Saber.Leak.M0', opens=['Saber.M0'], imports=['Verif.Model.M0.Indcpa', 'Verif.Model.Leak.Ref'], skip=['macC', 'macWrap'],
         sub=[(r'Saber\.keccak_absorb ', 'Leak.keccak_absorb '), (r'← mac z x y', '← lift (mac z x y)'), (r'\bLeaf\b', 'LLeaf'),
              (r'else \.error \.oob', 'else lift (.error .oob)')], extra='''/-- A routine that adds a product to an array; compare `Saber.M0.Leaf`. -/
abbrev LLeaf := List (BitVec 16) → Nat → List (BitVec 16) → Nat → List (BitVec 16) → Nat → LM (List (BitVec 16))

'''),
    dict(out='M4', title='The Cortex-M4 implementation with events', src=['M4/PolyMul', 'M4/Pack', 'M4/Cbd', 'M4/Poly', 'M4/Kem'],
         ns='Saber.Leak.M4', opens=['Saber.M4'], imports=['Verif.Model.M4.Kem', 'Verif.Model.Leak.Ref'], skip=['sub64', 'cmps'],
         sub=[(r'\bToom\b', 'LToom'), (r'\bKara\b', 'LKara'), (r'(?<![.\w])h1\b', 'Saber.M4.h1'), (r'(?<![.\w])((?:BS2POL|POL)\w+Blk|(?:INDCPA_)?SECRETKEYBYTES)\b', r'Saber.M4.\1'), (r'\(h2 P\)', '(Saber.M4.h2 P)'),
              (r'\blib\.(shake128|sha3_256|sha3_512|inc_\w+)', r'lib_\1 lib')], extra='''/-- `toom_cook_4way_*` with events; compare `Saber.M4.Toom`. -/
abbrev LToom := List (BitVec 16) → List (BitVec 16) → List (BitVec 16) → LM (List (BitVec 16) × List (BitVec 16))
/-- `kara_strd_mem_asm` with events; compare `Saber.M4.Kara`. -/
abbrev LKara := K4 → LM K4

/-- `&a[off]` passed as an array of 64 elements; no access. -/
def sub64 (a : List (BitVec 16)) (off : Nat) : LM (List (BitVec 16)) := lift (Saber.M4.sub64 a off)

/-- `fail |= out[0] ^ v0; ...`; compare `Saber.M4.cmps`. -/
def cmps (fail : BitVec 32) (bytes : List Byte) (off : Nat) : List Byte → LM (BitVec 32)
  | [] => pure fail
  | v :: vs => do
    let x ← rd bytes off
    cmps (fail ||| (x ^^^ v).setWidth 32) bytes (off + 1) vs

/-- Calls of the hash library (`Saber.M4.Fips202Lib`); what the library itself does is not observed. -/
def lib_shake128 (lib : Fips202Lib) (out : List Byte) (outOff outlen : Nat) (inp : List Byte) (inOff inlen : Nat) : LM (List Byte) :=
  ⟨[.call "shake128" [outOff, outlen, inOff, inlen]], lib.shake128 out outOff outlen inp inOff inlen⟩
/-- see `lib_shake128` -/
def lib_sha3_256 (lib : Fips202Lib) (out : List Byte) (outOff : Nat) (inp : List Byte) (inOff inlen : Nat) : LM (List Byte) :=
  ⟨[.call "sha3_256" [outOff, inOff, inlen]], lib.sha3_256 out outOff inp inOff inlen⟩
/-- see `lib_shake128` -/
def lib_sha3_512 (lib : Fips202Lib) (out : List Byte) (outOff : Nat) (inp : List Byte) (inOff inlen : Nat) : LM (List Byte) :=
  ⟨[.call "sha3_512" [outOff, inOff, inlen]], lib.sha3_512 out outOff inp inOff inlen⟩
/-- see `lib_shake128` -/
def lib_inc_init (lib : Fips202Lib) : LM lib.Ctx := ⟨[.call "shake128_inc_init" []], lib.inc_init⟩
/-- see `lib_shake128` -/
def lib_inc_absorb (lib : Fips202Lib) (ctx : lib.Ctx) (inp : List Byte) (inOff inlen : Nat) : LM lib.Ctx :=
  ⟨[.call "shake128_inc_absorb" [inOff, inlen]], lib.inc_absorb ctx inp inOff inlen⟩
/-- see `lib_shake128` -/
def lib_inc_finalize (lib : Fips202Lib) (ctx : lib.Ctx) : LM lib.Ctx := ⟨[.call "shake128_inc_finalize" []], lib.inc_finalize ctx⟩
/-- see `lib_shake128` -/
def lib_inc_squeeze (lib : Fips202Lib) (out : List Byte) (outOff outlen : Nat) (ctx : lib.Ctx) : LM (List Byte × lib.Ctx) :=
  ⟨[.call "shake128_inc_squeeze" [outOff, outlen]], lib.inc_squeeze out outOff outlen ctx⟩

'''),
    dict(out='Avx', title='The AVX2 implementation with events', src=['Avx/Matrix', 'Avx/Scm', 'Avx/Toom', 'Avx/Pack', 'Avx/Indcpa', 'Avx/Kem', 'Avx/AesNi'],
         ns='Saber.Leak.Avx', opens=['Saber.Avx'], imports=['Verif.Model.Leak.AvxMachine'], skip=['loadu', 'load', 'store'],
         sub=[(r'\bLib\b', 'LLib'), (r'\bKS\b', 'Saber.Avx.AesNi.KS'), (r'\bxors\b', 'Spec.Aes.xors'), (r'(?<![.\w])h1\b', 'Saber.Avx.h1'), (r'\(h2 P\)', '(Saber.Avx.h2 P)'), (r'Saber\.BS2POLq ', 'Leak.BS2POLq '),
              (r'(?<![\w)])\.ok ', 'pure '), (r'^(    )(let wrapnumber := .*)$', '\\1\\2' + ''.join(f'\n    branch (decide (({a} : Int) ≥ wrapnumber))' for a in range(8)))],
         extra=''),
    dict(out='X4', title='SaberX4 with events', src=['X4/Keccak', 'X4/Fips202', 'X4/Vec', 'X4/Pack', 'X4/Indcpa', 'X4/Kem'],
         ns='Saber.Leak.X4', opens=['Saber.X4'], imports=['Verif.Model.Leak.X4Machine'], skip=['four', 'gather', 'famM', 'fourA', 'rd2', 'wr2'],
         sub=[(r'(?<![\w)])\.ok ', 'pure '), (r'if _h : r ≤', 'if h : r ≤')], extra=''),
]


def branches(body):
    """Adds the `branch` events."""
    body = re.sub(r'^(\s*)if h : (.*) then do$', r'\1do\n\1branch (decide (\2))\n\1if h : \2 then do', body, flags=re.M)
    body = re.sub(r'^(\s*)if (transpose = 1|outlen ≠ 0|outlen % SHAKE\d+_RATE ≠ 0|j = 8) then$', r'\1branch (decide (\2))\n\1if \2 then', body, flags=re.M)
    body = re.sub(r'^(\s*)let h ← if (inlen < \d+) then do$', r'\1branch (decide (\2))\n\1let h ← if \2 then do', body, flags=re.M)
    body = re.sub(r'^(  )if (64 ≤ inlen|128 ≤ inlen|64 < len|s\.j = 0) then do$', r'\1do\n\1branch (decide (\2))\n\1if \2 then do', body, flags=re.M)
    body = re.sub(r'^(  )else if (0 < len|s\.j = 4) then( do)?$', r'\1else do\n\1branch (decide (\2))\n\1if \2 then\3', body, flags=re.M)
    body = re.sub(r'^(  )(let num := if (num \* 8 \+ g\.start > 255) then .*)$', r'\1branch (decide (\3))\n\1\2', body, flags=re.M)
    body = re.sub(r'^(  )if _h : (g\'\.start > 255) then ', r'\1branch (decide (\2))\n\1if _h : \2 then ', body, flags=re.M)
    body = re.sub(r'^(  )if (poly_number = 0) then do$', r'\1do\n\1branch (decide (\2))\n\1if \2 then do', body, flags=re.M)
    body = re.sub(r'^(  )(if (keypair ≠ 0) then do)$', r'\1branch (decide (\3))\n\1\2', body, flags=re.M)
    body = re.sub(r'^(  )if first then (.*)$', r'\1do\n\1branch first\n\1if first then \2', body, flags=re.M)
    body = re.sub(r'^(  )(let res ← addTo s\.res \(3 \+ 4 \* i\) o\.w4)$', r'\1\2\n\1branch (decide (i = 0))', body, flags=re.M)
    body = re.sub(r'^(\s*)(if (f = 0|isTranspose = 0|nl < 0 ∧ nl \+ \(8 - 1\) ≥ 0) then)$', r'\1branch (decide (\3))\n\1\2', body, flags=re.M)
    body = re.sub(r'^(  )if (modulus = \d+) then ', r'\1do\n\1branch (decide (\2))\n\1if \2 then ', body, flags=re.M)
    body = re.sub(r'^(  )else if (modulus = \d+) then ', r'\1else do\n\1branch (decide (\2))\n\1if \2 then ', body, flags=re.M)
    body = re.sub(r'^(    )if \(mask i\)\.msb then do$', r'\1do\n\1branch (mask i).msb\n\1if (mask i).msb then do', body, flags=re.M)
    body = re.sub(r'^(    )(let mj := if (i \+ 128 ≥ outlen) then .*)$', r'\1branch (decide (\3))\n\1\2', body, flags=re.M)
    return body


PERMUTE = '''/-- The function to which the calls of `KeccakF1600_StatePermute` are linked, with its events; compare `Saber.StatePermute`. -/
class LPermute where
  /-- the function: old contents of the state, new contents of the state -/
  permute : List (BitVec 64) → LM (List (BitVec 64))

instance reference : LPermute := ⟨Leak.KeccakF1600_StatePermute⟩
'''


def gen(t):
    out = []
    names = []
    for f in t['src']:
        text = open(f'lean/Verif/Model/{f}.lean').read()
        text = re.sub(r'/-!.*?-/', '', text, flags=re.S)
        text = re.sub(r'^section$', 'section Vars', text, flags=re.M)
        text = re.sub(r'^end$', 'end Vars', text, flags=re.M)
        items = re.split(r'\n(?=(?:/--|def |abbrev |structure |inductive |class |instance |variable |section |end |namespace |open |@\[))', text)
        merged = []
        for it in items:
            if merged and merged[-1].startswith('/--') and not re.search(r'^(def|abbrev|structure|inductive|class|@\[)', merged[-1], flags=re.M):
                merged[-1] += '\n' + it
            else:
                merged.append(it)
        out.append(f'/-! ## {f} -/\n')
        linked = own = False
        for it in merged:
            if re.match(r'variable \[StatePermute\]', it):
                linked = True
                out.append('section Linked\nvariable [L : LPermute]\n')
                continue
            if re.match(r'variable \(', it) and not re.search(r'^section Vars', text, flags=re.M):
                own = True
                out.append('section Vars\n')
            if re.match(r'variable \(', it) or re.match(r'(section|end) Vars', it):
                line = it.strip()
                for a, b in t['sub']:
                    line = re.sub(a, b, line)
                out.append(line + '\n')
                continue
            if re.search(r'^class StatePermute', it, flags=re.M):
                out.append(PERMUTE)
                continue
            m = re.match(r'(namespace|end) (\S+)', it)
            if m and m.group(2).startswith('Saber'):
                inner = m.group(2).split('.')[2:]
                if inner:
                    out.append(f'{m.group(1)} {inner[0]}')
                    if m.group(1) == 'namespace':
                        out.append(f'open {m.group(2)}\n')
                continue
            if m:
                out.append(f'{m.group(1)} {m.group(2)}')
                if m.group(1) == 'namespace':
                    out.append(f"open {t['opens'][0]}.{m.group(2)}\n")
                continue
            m = re.match(r'open (\S+) in\s*$', it)
            if m:
                out.append(f"open {t['ns']}.{m.group(1)} {t['opens'][0]}.{m.group(1)} in")
                continue
            m = re.search(r'^def (\S+)', it, flags=re.M)
            if not m:
                continue
            head = it[m.start():].split(':=')[0].split('\n  |')[0]
            if not re.search(r'(:|→)\s*(CM|Leaf|Toom)\b', head):
                continue
            if m.group(1) in t['skip']:
                continue
            body = it.strip()
            body = re.sub(r'\bCM\b', 'LM', body)
            body = body.replace('StatePermute.permute', 'LPermute.permute').replace('[StatePermute]', '[L : LPermute]')
            body = re.sub(r'← rb \(', '← random rb (', body)
            body = re.sub(r'← rb (buf|sk|pk) ', r'← random rb \1 ', body)
            for a, b in t['sub']:
                body = re.sub(a, b, body, flags=re.M)
            body = branches(body)
            out.append(body + '\n')
            names.append(m.group(1))
        if linked:
            out.append('end Linked\n')
        if own:
            out.append('end Vars\n')
    srcs = ', '.join(f'Model/{f}.lean' for f in t['src'])
    opens = f"open {' '.join(t['opens'])}\n\n" if t['opens'] else ''
    hdr = ''.join(f'import {i}\n' for i in t['imports']) + f'''/-!
# {t['title']}

Generated by `tools/leakgen.py` from {srcs}: the same code over the operations of `Model/Leak/Monad.lean`.  The erasure theorems in
`Proof/Leak` say that leaving out the events gives the model.  A condition that is fixed by the build configuration has no event.
-/
namespace {t['ns']}
{opens}
'''
    text = hdr + t['extra'] + '\n'.join(out) + f"\nend {t['ns']}\n"
    text = re.sub(r'\nopen (.*) in\n\n', r'\nopen \1 in\n', text)
    open(f"lean/Verif/Model/Leak/{t['out']}.lean", 'w').write(text)
    return names


if __name__ == '__main__':
    for t in TARGETS:
        print(t['out'], gen(t))

#!/usr/bin/env python3
"""Check that the groups of four statements in SaberX4's fips202x4.c, kem4x.c and SABER_indcpa.c are the same text up to the index.
A declaration, assignment or call that mentions x0 must be followed by the same text with 1, 2, 3 (or mention x0, x1, x2, x3 in order).
usage: x4check.py /repo/Variants/SaberX4_avx2"""
import re, sys
root = sys.argv[1]
def strip(t):
    t = re.sub(r'/\*.*?\*/', '', t, flags=re.S)
    return re.sub(r'//[^\n]*', '', t)
bad = 0
def check(fn):
    global bad
    t = strip(open(root + '/' + fn).read())
    t = re.sub(r'\b(sha3_256x4|sha3_512x4|shake128x4|shake256x4|keccak\w*4x|crypto_kem_\w+4x)', 'FUN', t)
    st = [re.sub(r'\s+', ' ', s).strip() for s in re.split(r'[;{}]', t)]
    st = [s for s in st if s]
    i = 0; n = 0
    while i < len(st):
        s = st[i]
        ids = re.findall(r'\b(?:ss\[4\*i\+([0-3])\]|[a-zA-Z_]+([0-3])\b|\w+_arr\[([0-3])\])', s)
        ids = [int(a or b or c) for a, b, c in ids]
        if not ids or s.startswith('unsigned char cmp'): i += 1; continue
        if set(ids) == {0, 1, 2, 3}:
            # arguments of a call or declaration: occurrences of each name must be exactly 0,1,2,3 in order
            names = {}
            for m in re.finditer(r'\b([a-zA-Z_]+)([0-3])\b', s): names.setdefault(m.group(1), []).append(int(m.group(2)))
            for k, v in names.items():
                if len(v) % 4 or v != [0, 1, 2, 3] * (len(v) // 4):
                    # pairs such as kr0+32
                    print(fn, 'CALL', k, v, s); bad += 1
            n += 1; i += 1; continue
        def sub(x, d): 
            x = re.sub(r'ss\[4\*i\+0\]', 'ss[4*i+%d]' % d, x)
            x = re.sub(r'_arr\[0\]', '_arr[%d]' % d, x)
            return re.sub(r'\b([a-zA-Z_]+)0\b', r'\g<1>%d' % d, x)
        if set(ids) != {0}: print(fn, 'START', s); bad += 1; i += 1; continue
        for d in (1, 2, 3):
            if i + d >= len(st) or st[i + d] != sub(s, d): print(fn, 'DIFF', d, s, '|', st[i + d]); bad += 1
        n += 4; i += 4
    print(fn, n, 'statements')
def check2(fn, first, last):
    """the same for SABER_indcpa.c, where the index may be inside of a name (a0_avx, skpv1_0, temp0, message0_dec)"""
    global bad
    t = strip('\n'.join(open(root + '/' + fn).read().split('\n')[first - 1:last]))
    t = re.sub(r'\b(GenMatrix4x|GenSecret4x|shake128x4|BS2POLq4x|POLVEC2BSX4|BS2POLVECX4|SABER_un_pack4bitX4|SABER_pack_4bit|_mm256_\w+|__m256i|u?int\d+_t|H1_avx|H2_avx|h1|h2|i\d|SABER_N\d*|AVX_N1|mod_p)\b',
               lambda m: re.sub(r'\d', '', m.group(0)) + 'F', t)
    t = re.sub(r'mask_ar\[\d\]=~\(0UL\);', '', t)
    st = [re.sub(r'\s+', ' ', x).strip() for x in re.split(r'[;{}]', t)]
    st = [x for x in st if x and not x.startswith('#')]
    pat = re.compile(r'\b([a-zA-Z]+(?:_[a-zA-Z]+)*(?:v1_)?|skpv1_|seed_arr\[|noiseseed_arr\[)([0-3])(_[a-zA-Z_]+)?\b(\])?')
    norm = lambda x: pat.sub(lambda m: m.group(1) + '@' + (m.group(3) or '') + (m.group(4) or ''), x)
    ids = lambda x: [int(m.group(2)) for m in pat.finditer(x)]
    i = n = 0
    while i < len(st):
        d = ids(st[i])
        if not d: i += 1; continue
        if set(d) == {0}:
            k = 1                                   # k statements for each index in turn
            while i + k < len(st) and set(ids(st[i + k])) == {0}: k += 1
            for l in (1, 2, 3):
                for j in range(k):
                    o = i + l * k + j
                    if o >= len(st) or norm(st[o]) != norm(st[i + j]) or set(ids(st[o])) != {l}:
                        print(fn, 'DIFF', l, st[i + j], '|', st[o] if o < len(st) else None); bad += 1
            n += 4 * k; i += 4 * k; continue
        names = {}
        for m in pat.finditer(st[i]): names.setdefault(m.group(1) + (m.group(3) or ''), []).append(int(m.group(2)))
        for k, v in names.items():
            if v == [0, 1] and i + 1 < len(st) and '__mi' in st[i]:      # a declaration split in two
                pass
            elif v == [2, 3] and '__mi' in st[i]: pass
            elif len(v) % 4 or v != [0, 1, 2, 3] * (len(v) // 4): print(fn, 'CALL', k, v, st[i]); bad += 1
        n += 1; i += 1
    print(fn, n, 'statements')
check('fips202x4.c'); check('kem4x.c')
check2('SABER_indcpa.c', 376, 398); check2('SABER_indcpa.c', 419, 440); check2('SABER_indcpa.c', 448, 934)
sys.exit(1 if bad else 0)

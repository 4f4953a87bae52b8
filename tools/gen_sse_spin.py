#!/usr/bin/env python3
"""Transcribes the inlined spin projections and reconstructions for SSE, include/scalarsite_sse/sse_spin_proj_inlines.h and
sse_spin_recon_inlines.h, into lists of instructions.  Every statement of the functions must be one of the known forms; prefetches are left out.

usage: gen_sse_spin.py OUT.lean
"""
import re, sys


def functions(path):
    s = open('/repo/' + path).read()
    blank = lambda m: re.sub(r'[^\n]', '', m.group(0))
    s = re.sub(r'/\*.*?\*/', blank, s, flags=re.S)
    s = re.sub(r'//[^\n]*', '', s)
    L = s.split('\n')
    i = 0
    while i < len(L):
        m = re.match(r'\s*void (inline\w+)\(const REAL32\* src, REAL32 \*dst, unsigned int n_vec\)', L[i])
        if m:
            j, depth, started, body = i, 0, False, []
            while True:
                depth += L[j].count('{') - L[j].count('}')
                started = started or '{' in L[j]
                body.append(L[j])
                if started and depth == 0:
                    break
                j += 1
            yield m.group(1), i + 1, j + 1, body
            i = j
        i += 1


def statements(body):
    cur, skip, loop = '', False, False
    for l in body[1:]:
        t = l.strip()
        if t.startswith('#if'):      # debugging output, `#if 0`
            assert t in ('#if 0', '#ifdef DEBUG_GENERIC_SPIN_PROJ_INLINES', '#ifdef DEBUG_GENERIC_SPIN_RECON_INLINES'), t
            skip = True
        elif t.startswith('#endif'):
            skip = False
        elif skip or t in ('', '{'):
            pass
        elif t.startswith('for('):
            assert re.match(r'for\(unsigned int site=0; site < n_vec-1; site\+\+\) *\{$', t), t
            loop = True
            yield 'LOOP'
        elif t == '}':
            if loop:
                yield 'END'
            loop = False
        else:
            cur += (' ' if cur else '') + t
            while ';' in cur:
                a, cur = cur.split(';', 1)
                cur = cur.strip()
                yield re.sub(r'\s+', ' ', a.strip())
    assert not cur, cur


FORMS = [
    (r'SSEVec v0(, v\d)*', None), (r'const REAL32\* src_shadow = src', None), (r'REAL32\* dst_shadow = dst', None),
    (r'_mm_prefetch\(\(const char \*\) ?(src|dst)_shadow(\+20)?, _MM_HINT_T0\)', None),
    (r'v(\d)\.floats\[(\d)\] = ([+-])1', lambda m: '.setf %s %s %s' % (m[1], m[2], 'true' if m[3] == '-' else 'false')),
    (r'v(\d)\.vector = _mm_load_ps\((src|dst)_shadow(?:\+(\d+))?\)', lambda m: '.load %s %s %s' % (m[1], 'true' if m[2] == 'dst' else 'false', m[3] or 0)),
    (r'v(\d)\.vector = v(\d)\.vector', lambda m: '.mov %s %s' % (m[1], m[2])),
    (r'v(\d)\.vector = _mm_shuffle_ps\(v(\d)\.vector, v(\d)\.vector, 0x([0-9A-F]+)\)', lambda m: '.shuf %s %s %s 0x%s' % (m[1], m[2], m[3], m[4])),
    (r'v(\d)\.vector = _mm_(add|sub|mul)_ps\(v(\d)\.vector, v(\d)\.vector ?\)', lambda m: '.%s %s %s %s' % (m[2], m[1], m[3], m[4])),
    (r'_mm_store_ps\( ?dst_shadow(?:\+(\d+))?, ?v(\d)\.vector\)', lambda m: '.store %s %s' % (m[1] or 0, m[2])),
    (r'(src|dst)_shadow ?\+= ?(\d+)', lambda m: '.inc%s %s' % ('S' if m[1] == 'src' else 'D', m[2])),
]


def translate(body):
    out, k = [[], [], []], 0
    for t in statements(body):
        if t in ('LOOP', 'END'):
            assert k == (0 if t == 'LOOP' else 1)
            k += 1
            continue
        for p, f in FORMS:
            m = re.fullmatch(p, t)
            if m:
                if f:
                    out[k].append(f(m))
                break
        else:
            raise Exception(t)
    assert k == 2
    return out


out = ['''import Verif.SseSpin
/- Generated by tools/gen_sse_spin.py: instructions of the functions before the loop, in the loop, behind it. -/
namespace Verif.SseSpin
''']
for path, pre, title in [('include/scalarsite_sse/sse_spin_proj_inlines.h', 'SpinProj', 'projF'), ('include/scalarsite_sse/sse_spin_recon_inlines.h', 'SpinRecon', 'reconF'),
                         ('include/scalarsite_sse/sse_spin_recon_inlines.h', 'AddSpinRecon', 'addReconF')]:
    fs = {n: (a, b, body) for n, a, b, body in functions(path)}
    names = []
    for d in range(4):
        for s in ('Plus', 'Minus'):
            n = 'inline%sDir%d%s' % (pre, d, s)
            a, b, body = fs[n]
            names.append(n)
            A = translate(body)
            out.append('/-- `%s`, %s:%d-%d -/\ndef %s : Fn :=\n  ⟨%s⟩\n' % (n, path, a, b, n, ',\n   '.join('[' + ', '.join(x) + ']' for x in A)))
    out.append('/-- the eight `inline%sDir` of %s, in the order 0Plus, 0Minus, 1Plus, ... -/\ndef %s : Fin 8 → Fn := ![%s]\n' % (pre, path, title, ', '.join(names)))
out.append('end Verif.SseSpin')
open(sys.argv[1], 'w').write('\n'.join(out) + '\n')

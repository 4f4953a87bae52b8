#!/usr/bin/env python3
"""Writes lean/Verif/SseSiteTables.lean from the specialised operators of include/scalarsite_sse/qdp_scalarsite_sse_linalg.h and the
product with half fermions of lib/scalarsite_sse/qdp_scalarsite_sse.cc."""
import re
F = '/repo/include/scalarsite_sse/qdp_scalarsite_sse_linalg.h'
G = '/repo/lib/scalarsite_sse/qdp_scalarsite_sse.cc'
FN = {'operator*': 'mul', 'operator+': 'add', 'adjMultiply': 'adjMul', 'multiplyAdj': 'mulAdj', 'adjMultiplyAdj': 'adjMulAdj'}
RO = {'intrin_sse_mult_su3_nn': 'nn', 'intrin_sse_mult_su3_an': 'an', 'intrin_sse_mult_su3_na': 'na', 'intrin_sse_mult_su3_mat_vec': 'mv',
      'intrin_sse_mult_adj_su3_mat_vec': 'av', 'intrin_sse_mult_su3_mat_hwvec': 'mh', 'intrin_sse_mult_adj_su3_mat_hwvec': 'ah',
      'intrin_sse_add_su3_vector': 'vv'}
M, V = 'PColorMatrix<RComplexFloat,3>', 'PColorVector<RComplexFloat,3>'
NORM = {'PMatrix<RComplexFloat,3,PColorMatrix>': ('M', 0), 'PScalar<%s >' % M: ('M', 1), 'PScalar<PScalar<%s > >' % M: ('M', 2),
        'PVector<RComplexFloat,3,PColorVector>': ('V', 0), 'PScalar<%s >' % V: ('V', 1), 'PSpinVector<%s,1>' % V: ('S', 1),
        'PSpinVector<%s,2>' % V: ('S', 2), 'PSpinVector<%s,4>' % V: ('S', 4)}

def typ(x):
    k, n = x
    if k == 'S':
        return '.vec .spin %d (.vec .color 2 .rc)' % (n - 1)
    t = '.mat .color 2 .rc' if k == 'M' else '.vec .color 2 .rc'
    for _ in range(n):
        t = '.sca (%s)' % t
    return t

def fun(fn, a, b):
    if fn == 'operator+':
        assert a == b
        return '.add (%s)' % typ(a)
    p = '.mm .color 2 .cc' if b[0] == 'M' else '.mv .color 2 .cc'
    assert a[0] == 'M'
    if b[0] == 'S':
        assert a[1] == 1
        p = '.sv .spin %d (%s)' % (b[1] - 1, p)
    else:
        assert a[1] == b[1]
        for _ in range(b[1]):
            p = '.ss (%s)' % p
    return '.%s (%s)' % (FN[fn], p)

def offset(t, path):
    """word at which the element `path` of an object of type t begins"""
    k, n = t
    p = re.findall(r'\.elem\((.*?)\)', path)
    if k == 'S':
        assert len(p) == 2
        s, p = int(p[0]), p[1:]
        assert s < n
    else:
        s = 0
        assert p[:n] == [''] * n
        p = p[n:]
    assert len(p) == 1
    i = [int(x) for x in p[0].split(',')]
    if k == 'M':
        assert len(i) == 2
        return 2 * (3 * i[0] + i[1])
    assert len(i) == 1
    return 6 * s + 2 * i[0]

L = open(F).read().split('\n')
out, names = [], []
i = 0
while i < len(L):
    if L[i].strip() == 'template<>':
        j = next(k for k in range(i, len(L)) if L[k].startswith('}') or L[k].rstrip().endswith(');') and 'Subset' in L[k])
        text = ' '.join(' '.join(x for x in L[i:j + 1] if not x.startswith('#') and 'cout' not in x and not x.strip().startswith('//')).split())
        if 'void evaluate' in text:
            break
        m = re.search(r'(operator\*|operator\+|adjMultiplyAdj|adjMultiply|multiplyAdj) ?\(const (.*?)& l, const (.*?)& r\) \{ (.*) \}$', text)
        assert m, text
        a, b = NORM[m[2].strip()], NORM[m[3].strip()]
        d = b
        st = [x.strip() for x in m[4].split(';') if x.strip()]
        assert re.fullmatch(r'BinaryReturn<.*>::Type_t d', st[0]) and st[-1] == 'return d', st
        ptr, calls, stores, tmp = {}, [], [], False
        for x in st[1:-1]:
            q = re.fullmatch(r'(\w+) ?\* ?(\w+) ?= ?\(\1 ?\*\) ?&\( ?(l|r|d|tmp)((?:\.elem\([\d,]*\))+)\.real\(\) ?\)', x)
            if q:
                ty = {'l': a, 'r': b, 'd': d, 'tmp': ('M', 0)}[q[3]]
                ptr[q[2]] = (q[3], offset(ty, q[4]))
                continue
            q = re.fullmatch(r'(\w+) ?\( ?(\w+) ?, ?(\w+) ?, ?(\w+) ?\)', x)
            if q and q[1] in RO:
                c = [ptr[q[n]] for n in (2, 3, 4)]
                assert c[0][0] in 'lr' and c[1][0] in 'lr'
                assert c[2][0] == ('tmp' if tmp else 'd')
                calls.append('⟨.%s, (%s, %d), (%s, %d), %d⟩' % (RO[q[1]], str(c[0][0] == 'r').lower(), c[0][1], str(c[1][0] == 'r').lower(), c[1][1], c[2][1]))
                continue
            if x == 'PColorMatrix<RComplexFloat,3> tmp':
                tmp = True
                continue
            q = re.fullmatch(r'd\.elem\((\d),(\d)\)\.(real|imag)\(\) = ?(-?) ?tmp\.elem\((\d),(\d)\)\.(real|imag)\(\)', x)
            assert q and tmp, x
            stores.append('⟨%s, %s, %s, .set, %s, %s, %s, %s⟩' % (q[1], q[2], str(q[3] == 'imag').lower(), str(q[4] == '-').lower(), q[5], q[6], str(q[7] == 'imag').lower()))
        n = 'o%02d' % len(names)
        names.append(n)
        out.append('/-- include/scalarsite_sse/qdp_scalarsite_sse_linalg.h:%d-%d -/' % (i + 1, j + 1))
        s = ', '.join(stores[:6])
        for k in range(6, len(stores), 6):
            s += ',\n    ' + ', '.join(stores[k:k + 6])
        out.append('def %s : Spec := ⟨%s, %s, _, %s,\n   [%s], %s, [%s]⟩\n' % (n, typ(a), typ(b), fun(m[1], a, b), ', '.join(calls), str(tmp).lower(), s))
        i = j
    i += 1

T = open(G).read().split('\n')
s = next(k for k in range(len(T)) if 'QDP_H_M_times_H' in T[k])
e = next(k for k in range(s, len(T)) if T[k].startswith('}'))
body = ''.join(''.join(T[s:e + 1]).split())
loop = (r'su3_matrixf\*lm=\(su3_matrixf\*\)&\(l\.elem\(i\)\.elem\(\)\.elem\(0,0\)\.real\(\)\);'
        r'half_wilson_vectorf\*rh=\(half_wilson_vectorf\*\)&\(r\.elem\(i\)\.elem\(0\)\.elem\(0\)\.real\(\)\);'
        r'half_wilson_vectorf\*dh=\(half_wilson_vectorf\*\)&\(d\.elem\(i\)\.elem\(0\)\.elem\(0\)\.real\(\)\);(\w+)\(lm,rh,dh\);')
q = re.search(r'if\(s\.hasOrderedRep\(\)\)\{for\(inti=s\.start\(\);i<=s\.end\(\);i\+\+\)\{' + loop + r'\}\}else\{constint\*tab=s\.siteTable\(\)\.slice\(\);'
              r'for\(intj=0;j<s\.numSiteTable\(\);j\+\+\)\{inti=tab\[j\];' + loop + r'\}\}\}$', body)
assert q

o = ['import Verif.SseSite',
     '/-\nThe specialised operators of include/scalarsite_sse/qdp_scalarsite_sse_linalg.h, written by tools/gen_sse_site.py.\n-/',
     'namespace Verif.SseSite\n'] + out
o.append('/-- the specialisations -/')
o.append('def specs : List Spec := [%s]\n' % ', '.join(names))
o.append('/-- the routine called in the two loops, lib/scalarsite_sse/qdp_scalarsite_sse.cc:%d-%d -/' % (s + 1, e + 1))
o.append('def halfRoutine (ordered : Bool) : Routine := if ordered then .%s else .%s\n' % (RO[q[1]], RO[q[2]]))
o.append('end Verif.SseSite')
open('/verif/lean/Verif/SseSiteTables.lean', 'w').write('\n'.join(o) + '\n')

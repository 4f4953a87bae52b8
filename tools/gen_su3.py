#!/usr/bin/env python3
"""Writes lean/Verif/Su3Tables.lean from the macros and specialisations of include/scalarsite_generic."""
import re, sys
D = '/repo/include/scalarsite_generic/'

def lines(f):
    return open(D + f).read().split('\n')

def comp(e, vec):
    if vec:
        m = re.fullmatch(r'\w+\.elem\((\d)\)\.(real|imag)\(\)', e)
        return 2 * int(m[1]) + (m[2] == 'imag')
    m = re.fullmatch(r'\w+\.elem\((\d),(\d)\)\.(real|imag)\(\)', e)
    return 2 * (3 * int(m[1]) + int(m[2])) + (m[3] == 'imag')

def macro(f, name):
    L = lines(f)
    a = next(i for i, l in enumerate(L) if ('#define ' + name + '(') in l)
    b = next(i for i in range(a, len(L)) if L[i].strip() == '}')
    body = ' '.join(l.rstrip().rstrip('\\') for l in L[a + 1:b + 1])
    return a + 1, b + 1, body.strip()[1:-1]

def steps(f, name, avec, bvec, cvec):
    a, b, body = macro(f, name)
    out = []
    for st in body.split(';'):
        st = st.strip()
        if not st:
            continue
        m = re.fullmatch(r'(cc\.\S+)\s*(=|\+=|-=)\s*(aa\.\S+)\*(bb\.\S+)', st)
        assert m, st
        op = {'=': '.set', '+=': '.add', '-=': '.sub'}[m[2]]
        out.append((comp(m[1], cvec), op, comp(m[3], avec), comp(m[4], bvec)))
    return a, b, out

def terms(f, name, fn):
    a, b, body = macro(f, name)
    out = []
    for st in body.split(';'):
        st = st.strip()
        if not st:
            continue
        lhs, rhs = st.split('=')
        m = re.fullmatch(r'cc\.elem\((\d),(\d)\)', lhs.strip())
        ts = []
        for t in re.split(r'\+', rhs):
            q = re.fullmatch(fn + r'\(aa\.elem\((\d),(\d)\),bb\.elem\((\d),(\d)\)\)', t.strip())
            assert q, t
            ts.append(((q[1], q[2]), (q[3], q[4])))
        out.append(((m[1], m[2]), ts))
    return a, b, out

def adds(f, name):
    a, b, body = macro(f, name)
    out = []
    for st in body.split(';'):
        st = st.strip()
        if st:
            m = re.fullmatch(r'cc\.elem\((\d)\) = aa\.elem\((\d)\) \+ bb\.elem\((\d)\)', st)
            assert m, st
            out.append((m[1], m[2], m[3]))
    return a, b, out

def evaluate():
    f = 'qdp_scalarsite_generic_linalg_wrapper.h'
    L = lines(f)
    out = []
    for name in ('ordered', 'unordered'):
        a = next(i for i, l in enumerate(L) if ('void ' + name + '_linalg_evaluate_userfunc') in l)
        b = next(i for i in range(a, len(L)) if L[i].startswith('}'))
        text = ''.join(''.join(L[a:b + 1]).split())
        calls = re.findall(r'(_inline_\w+)\(l\.elem\(i\)\.elem\(\),r\.elem\(i\)\.elem\((\d)\),d\.elem\(i\)\.elem\((\d)\)\);', text)
        assert text.count('_inline_') == len(calls)
        out.append((a + 1, b + 1, calls))
    return out

def specs():
    f = 'qdp_scalarsite_generic_linalg.h'
    L = lines(f)
    out = []
    skip = 0
    i = 0
    while i < len(L):
        if L[i].strip() == '#if 0':
            while L[i].strip() != '#endif':
                i += 1
        if L[i].strip() == 'template<>':
            j = next(k for k in range(i, len(L)) if L[k].startswith('}'))
            text = '\n'.join(L[i:j + 1])
            head = text[text.index('inline'):text.index('{')]
            sig = ' '.join(head.split())
            if 'void evaluate' in sig:
                break
            fn = re.search(r'(operator\*|operator\+|adjMultiply|multiplyAdj)\(const (.*?)& l, const (.*?)& r\)', sig)
            assert fn, sig
            calls = re.findall(r'(_inline_\w+)\((\S+?),(\S+?),(\S+?)\);', text)
            out.append((i + 1, j + 1, fn[1], fn[2].strip(), fn[3].strip(), calls))
            i = j
        i += 1
    return out

nn = steps('generic_mult_nn.h', '_inline_generic_mult_su3_nn', False, False, False)
mv = steps('generic_mat_vec.h', '_inline_generic_mult_su3_mat_vec', False, True, True)
av = steps('generic_mat_vec.h', '_inline_generic_mult_adj_su3_mat_vec', False, True, True)
na = terms('generic_mult_na.h', '_inline_generic_mult_su3_na', 'multiplyAdj')
an = terms('generic_mult_an.h', '_inline_generic_mult_su3_an', 'adjMultiply')

vv = adds('generic_addvec.h', '_inline_generic_add_su3_vector')

def show(ss, w=6):
    rows = []
    for k in range(0, len(ss), w):
        rows.append(', '.join('.word %d %s %d %d' % s for s in ss[k:k + w]))
    return '[' + ',\n    '.join(rows) + ']'

def showt(ts, adj):
    return '[' + ',\n    '.join('.prods %s %d [%s]' % (adj, 3 * int(d[0]) + int(d[1]), ', '.join('(%d, %d)' % (3 * int(a[0]) + int(a[1]), 3 * int(b[0]) + int(b[1])) for a, b in t)) for d, t in ts) + ']'

FN = {'operator*': 'mul', 'operator+': 'add', 'adjMultiply': 'adjMul', 'multiplyAdj': 'mulAdj'}
MA = {'_inline_generic_mult_su3_nn': 'nn', '_inline_generic_mult_su3_na': 'na', '_inline_generic_mult_su3_an': 'an',
      '_inline_generic_mult_su3_mat_vec': 'mv', '_inline_generic_mult_adj_su3_mat_vec': 'av', '_inline_generic_add_su3_vector': 'vv'}
CM, CV = 'PColorMatrix<RComplexFloat,3>', 'PColorVector<RComplexFloat,3>'
NORM = {'PMatrix<RComplexFloat,3,PColorMatrix>': ('M', 0), 'PScalar<PColorMatrix<RComplexFloat,3> >': ('M', 1),
        'PVector<RComplexFloat,3,PColorVector>': ('V', 0), 'PScalar<PColorVector<RComplexFloat,3> >': ('V', 1),
        'PVector<PColorVector<RComplexFloat,3>,1,PSpinVector>': ('S', 1), 'PVector<PColorVector<RComplexFloat,3>,2,PSpinVector>': ('S', 2),
        'PVector<PColorVector<RComplexFloat,3>,4,PSpinVector>': ('S', 4)}

def typ(x):
    k, n = NORM[x]
    if k == 'S':
        return '.vec .spin %d (.vec .color 2 .rc)' % (n - 1)
    t = '.mat .color 2 .rc' if k == 'M' else '.vec .color 2 .rc'
    return '.sca (%s)' % t if n else t

def fun(fn, l, r):
    a, b = NORM[l], NORM[r]
    if fn == 'operator+':
        assert a == b and a[0] == 'V'
        return '.add (%s)' % typ(l)
    p = '.mm .color 2 .cc' if b[0] == 'M' else '.mv .color 2 .cc'
    if b[0] == 'S':
        assert a == ('M', 1)
        p = '.sv .spin %d (%s)' % (b[1] - 1, p)
    else:
        assert a == ('M', b[1])
        if a[1]:
            p = '.ss (%s)' % p
    return '.%s (%s)' % (FN[fn], p)

def idx(e):
    m = re.fullmatch(r'[lrd](\.elem\((\d?)\))?', e)
    return int(m[2]) if m[2] else 0

o = []
o.append('import Verif.Su3')
o.append('/-\nThe macros and specialisations of include/scalarsite_generic, written by tools/gen_su3.py.\n-/')
o.append('namespace Verif.Su3\n')
o.append('/-- `_inline_generic_mult_su3_nn`, include/scalarsite_generic/generic_mult_nn.h:%d-%d -/' % nn[:2])
o.append('def nn : List Stm :=\n   ' + show(nn[2]) + '\n')
o.append('/-- `_inline_generic_mult_su3_mat_vec`, include/scalarsite_generic/generic_mat_vec.h:%d-%d -/' % mv[:2])
o.append('def mv : List Stm :=\n   ' + show(mv[2]) + '\n')
o.append('/-- `_inline_generic_mult_adj_su3_mat_vec`, include/scalarsite_generic/generic_mat_vec.h:%d-%d -/' % av[:2])
o.append('def av : List Stm :=\n   ' + show(av[2]) + '\n')
o.append('/-- `_inline_generic_mult_su3_na`, include/scalarsite_generic/generic_mult_na.h:%d-%d -/' % na[:2])
o.append('def na : List Stm :=\n   ' + showt(na[2], '.right') + '\n')
o.append('/-- `_inline_generic_mult_su3_an`, include/scalarsite_generic/generic_mult_an.h:%d-%d -/' % an[:2])
o.append('def an : List Stm :=\n   ' + showt(an[2], '.left') + '\n')
o.append('/-- `_inline_generic_add_su3_vector`, include/scalarsite_generic/generic_addvec.h:%d-%d -/' % vv[:2])
o.append('def vv : List Stm := [' + ', '.join('.sum %s %s %s' % t for t in vv[2]) + ']\n')
names = []
for n, (a, b, fn, l, r, calls) in enumerate(specs()):
    f = fun(fn, l, r)
    w = {'M': 18, 'V': 6, 'S': 6}
    o.append('/-- include/scalarsite_generic/qdp_scalarsite_generic_linalg.h:%d-%d -/' % (a, b))
    o.append('def s%02d : Spec := ⟨%s, %s, _, %s, [%s]⟩\n' % (n, typ(l), typ(r), f, ', '.join('⟨%s, %d, %d, %d⟩' % (MA[c], w[NORM[l][0]] * idx(x), w[NORM[r][0]] * idx(y), w[NORM[r][0]] * idx(z)) for c, x, y, z in calls)))
    names.append('s%02d' % n)
o.append('/-- the specialisations of include/scalarsite_generic/qdp_scalarsite_generic_linalg.h -/')
o.append('def specs : List Spec := [' + ', '.join(names) + ']\n')
for name, (a, b, calls) in zip(('orderedCalls', 'unorderedCalls'), evaluate()):
    o.append('/-- the body of the loop, include/scalarsite_generic/qdp_scalarsite_generic_linalg_wrapper.h:%d-%d -/' % (a, b))
    o.append('def %s : List Call := [%s]\n' % (name, ', '.join('⟨%s, 0, %d, %d⟩' % (MA[c], 6 * int(x), 6 * int(y)) for c, x, y in calls)))
o.append('end Verif.Su3')
open('/verif/lean/Verif/Su3Tables.lean', 'w').write('\n'.join(o) + '\n')

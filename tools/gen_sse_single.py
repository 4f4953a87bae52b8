#!/usr/bin/env python3
"""Extracts the statements behind the call of the external product from lib/scalarsite_sse/qdp_scalarsite_sse.cc (single precision colour matrices).

usage: gen_sse_single.py OUT.lean
"""
import re, sys

SRC = 'lib/scalarsite_sse/qdp_scalarsite_sse.cc'
L = open('/repo/' + SRC).read().split('\n')
KIND = {'OpMultiply': 'mm', 'OpAdjMultiply': 'hm', 'OpMultiplyAdj': 'mh', 'OpAdjMultiplyAdj': 'hh'}
OP = {'OpAssign': 'set', 'OpAddAssign': 'add', 'OpSubtractAssign': 'sub'}
ASG = {'=': 'set', '+=': 'add', '-=': 'sub'}
CALL = {'nn': 'mm', 'an': 'hm', 'na': 'mh'}

heads = [i for i, l in enumerate(L) if l.startswith('void evaluate(OLattice< TCol >& d')]
rows = []
for k, h in enumerate(heads):
    end = h
    while not L[end].startswith('}'):
        end += 1
    body = L[h:end + 1]
    text = '\n'.join(body)
    m = re.search(r'BinaryNode<(\w+),', text)
    if not m:
        continue  # copies: modelled by hand
    kind = KIND[m.group(1)]
    op = OP[re.search(r'const (\w+)& op', text).group(1)]
    # both operands are taken without the identity nodes
    assert re.search(r'l = static_cast<const C&>\(rhs\.expression\(\)\.left\(\)(\.child\(\))?\);', text)
    assert re.search(r'r = static_cast<const C&>\(rhs\.expression\(\)\.right\(\)(\.child\(\))?\);', text)
    branches = []
    for i, l in enumerate(body):
        if re.match(r'\s*for\(int i=s\.start\(\); i <= s\.end\(\); i\+\+\)', l):
            branches.append(dict(ordered=True, stores=[], line=h + i + 1))
        if re.match(r'\s*for\(int j=0; j < s\.numSiteTable\(\); (\+\+j|j\+\+)\)', l):
            branches.append(dict(ordered=False, stores=[], line=h + i + 1))
        m = re.match(r'\s*(\w+) \*(lm|rm|dm|tmpm) = \(su3_matrixf \*\)&\((\w+)\.(.*)elem\(0,0\)\.real\(\)\);', l)
        if m:
            want = {'lm': ('l', 'elem(i).elem().'), 'rm': ('r', 'elem(i).elem().'), 'dm': ('d', 'elem(i).elem().'), 'tmpm': ('tmp', '')}[m.group(2)]
            assert (m.group(3), m.group(4)) == want, l
        m = re.search(r'intrin_sse_mult_su3_(\w+)\((\w+), *(\w+), *(\w+)\);', l)
        if m:
            b = branches[-1]
            assert 'call' not in b
            b['call'] = m.groups()
        m = re.match(r'\s*d\.elem\(i\)\.elem\(\)\.elem\((\d),(\d)\)\.(real|imag)\(\)\s*(\+=|-=|=)\s*(-?)tmp\.elem\((\d),(\d)\)\.(real|imag)\(\);$', l)
        if m:
            i1, j1, p1, o, sg, i2, j2, p2 = m.groups()
            branches[-1]['stores'].append('⟨%s, %s, %s, .%s, %s, %s, %s, %s⟩' % (
                i1, j1, 'true' if p1 == 'imag' else 'false', ASG[o], 'true' if sg else 'false', i2, j2, 'true' if p2 == 'imag' else 'false'))
        elif 'd.elem' in l or 'tmp.elem' in l:
            assert 'su3_matrixf' in l or l.strip().startswith('//'), l
    assert [b['ordered'] for b in branches] == [True, False], (h, branches)
    for b in branches:
        rows.append((kind, op, b, h))

out = ['''import Verif.SseSingle
/- Generated by tools/gen_sse_single.py from %s. -/
namespace Verif.SseSingle.Tables
open Verif.Sse Verif.SseSingle
''' % SRC]
for kind, op, b, h in rows:
    name = '%s_%s_%s' % (kind, op, 'ordered' if b['ordered'] else 'table')
    r, x, y, z = b['call']
    assert z in ('dm', 'tmpm')
    assert (z == 'dm') == (not b['stores'])
    lst = '[%s]' % ', '.join(b['stores']) if b['stores'] else '[]'
    out.append('/-- %s:%d- -/\ndef %s : Branch :=\n  ⟨.%s, %s, %s,\n    %s⟩\n' % (
        SRC, b['line'], name, CALL[r], 'false' if (x, y) == ('lm', 'rm') else {('rm', 'lm'): 'true'}[(x, y)], 'true' if z == 'tmpm' else 'false', lst))
out.append('/-- the branch of the statement `d op product` -/\ndef branch : Kind → Asg → Bool → Branch')
for kind, op, b, h in rows:
    out.append('  | .%s, .%s, %s => %s_%s_%s' % (kind, op, 'true' if b['ordered'] else 'false', kind, op, 'ordered' if b['ordered'] else 'table'))
out.append('\nend Verif.SseSingle.Tables')
open(sys.argv[1], 'w').write('\n'.join(out) + '\n')
print(len(rows))

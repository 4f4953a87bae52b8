#!/usr/bin/env python3
"""Write lean/Verif/VecSseTables.lean from the macro of include/scalarvecsite_sse/ssevec_mult_nn.h, instruction by instruction."""
import re, sys
src = open('/repo/include/scalarvecsite_sse/ssevec_mult_nn.h').read().split('\n')
blocks, cur = [], None
for n, line in enumerate(src, 1):
    if '__asm__ __volatile__ (' in line and 'prefetch' not in line:
        cur = dict(first=n, ins=[], ops=[]); blocks.append(cur)
    if cur is None: continue
    m = re.search(r'"(\w+)\s+(%+\w+),(%+\w+)\\n', line)
    if m: cur['ins'].append(m.groups())
    m = re.search(r'"=?m" \(\*\((\w\w)\+(\d+)(\+8\*j)?\)\)', line)
    if m:
        cur['ops'].append((m.group(1), int(m.group(2)), bool(m.group(3)))); cur['last'] = n
def reg(s): return int(s[5:])
out = ['import Verif.VecSse', '/-', 'Written by tools/gen_ssevec.py from include/scalarvecsite_sse/ssevec_mult_nn.h: the instructions of the macro',
       '`_inline_ssevec_mult_su3_nn`, one list for each `__asm__`.  Operands of an instruction come first source, then destination; the operands of the',
       'statement are `%0`, `%1`, ….', '-/', 'namespace Verif.VecSse', '']
for b, blk in enumerate(blocks):
    out.append(f'/-- include/scalarvecsite_sse/ssevec_mult_nn.h:{blk["first"]}-{blk["last"]} -/')
    ins = []
    for op, a, d in blk['ins']:
        isreg = lambda s: s.startswith('%%')
        if op == 'movaps' and isreg(a) and isreg(d): ins.append(f'.mov {reg(a)} {reg(d)}')
        elif op == 'movaps' and isreg(d): ins.append(f'.load {a[1:]} {reg(d)}')
        elif op == 'movaps' and isreg(a): ins.append(f'.store {reg(a)} {d[1:]}')
        elif op == 'mulps' and not isreg(a): ins.append(f'.mulm {a[1:]} {reg(d)}')
        elif op == 'addps' and isreg(a): ins.append(f'.add {reg(a)} {reg(d)}')
        elif op == 'subps' and isreg(a): ins.append(f'.sub {reg(a)} {reg(d)}')
        else: sys.exit(f'? {op} {a} {d}')
    ops = [f'⟨.{p}, {k}, {"true" if j else "false"}⟩' for p, k, j in blk['ops']]
    out += [f'def asm{b} : Asm where', '  ins := [' + ',\n    '.join(', '.join(ins[i:i+8]) for i in range(0, len(ins), 8)) + ']',
            '  ops := [' + ', '.join(ops) + ']', '']
out += ['/-- the macro, include/scalarvecsite_sse/ssevec_mult_nn.h:7-178 -/', 'def mulMacro : List Asm := [' + ', '.join(f'asm{b}' for b in range(len(blocks))) + ']', '', 'end Verif.VecSse', '']
open('/verif/lean/Verif/VecSseTables.lean', 'w').write('\n'.join(out))

#!/usr/bin/env python3
"""Prints lean/Verif/SseTables.lean: the kernels of lib/scalarsite_sse/sse_linalg_*_double.cc, statement by statement, from their text.

Registers are numbered in the order of their declarations; `scalar` (set before the loop) is constant register 0.  The macros are printed twice, as
compiled without and with QDP_USE_SSE3; the variables declared inside a macro are registers 21, 22, ...
"""
import re, sys
DIR = '/repo/lib/scalarsite_sse/'
FILES = ['sse_linalg_m_eq_mm_double.cc', 'sse_linalg_m_eq_hm_double.cc', 'sse_linalg_m_eq_mh_double.cc', 'sse_linalg_m_eq_hh_double.cc',
         'sse_linalg_m_eq_scal_m_double.cc', 'sse_linalg_m_peq_m_double.cc']
SKIP = {'ssed_m_peq_h', 'ssed_m_meq_h'}          # called by nothing in the library

def strip(s):
    s = re.sub(r'/\*.*?\*/', lambda m: re.sub(r'[^\n]', ' ', m.group(0)), s, flags=re.S)
    return re.sub(r'//[^\n]*', '', s)

BIN = {'_mm_mul_pd': 'mul', '_mm_add_pd': 'add', '_mm_sub_pd': 'sub', '_mm_hadd_pd': 'hadd', '_mm_hsub_pd': 'hsub'}

def statement(t, reg, dst, ptr):
    """one C statement -> Lean term of type Ins"""
    t = t.strip()
    m = re.fullmatch(r'_mm_storeu?_pd\(\s*(\w+)\s*(?:\+\s*(\d+))?\s*,\s*(\w+)\s*\)', t)
    if m: return '.st %d %s %s' % (ptr[m[1]], m[2] or 0, reg(m[3]))
    m = re.fullmatch(r'\(?(\w+)\)?\s*=\s*(\w+)\s*\((.*)\)', t)
    assert m, t
    d, f, args = m[1], m[2], m[3]
    args = [re.sub(r'^\((\w+)\)$', r'\1', a.strip()) for a in args.split(',')]
    if f in ('_mm_load_pd', '_mm_loadu_pd'):
        m = re.fullmatch(r'(\w+)\s*(?:\+\s*(\d+))?', args[0])
        return '.ld %s %d %s' % (dst(d), ptr[m[1]], m[2] or 0)
    if f in BIN: return '.%s %s %s %s' % (BIN[f], dst(d), reg(args[0]), reg(args[1]))
    if f == '_mm_shuffle_pd': return '.shuf %s %s %s %d' % (dst(d), reg(args[0]), reg(args[1]), int(args[2], 16))
    if f == '_mm_setzero_pd': return '.zero %s' % dst(d)
    if f == '_mm_load_sd': assert args == ['a']; return '.sd %s' % dst(d)
    if f == '_mm_set_pd':
        v = [re.sub(r'\s', '', a).replace('(double)', '') for a in args]
        assert v == ['(-1)', '1'], v
        return '.sgn %s' % dst(d)
    raise Exception(t)

def macros(src):
    """name -> [(params, body text, line)] in the order SSE2, SSE3"""
    out = {}
    for m in re.finditer(r'#define (\w+)\((\w+),(\w+),(\w+)\)((?:[^\n]*\\\n)+[^\n]*\n)', src):
        out.setdefault(m[1], []).append(((m[2], m[3], m[4]), m[5].replace('\\\n', '\n'), src[:m.start()].count('\n') + 1,
                                         src[:m.end()].count('\n')))
    return out

def macro_def(name, vers, file, pre):
    o = []
    for (ps, body, l0, l1), sse in zip(vers, ('2', '3')):
        loc = {}
        ins = []
        body = body.strip().strip('{}')
        def reg(x):
            if x in ps: return {'z': '(.v z)', 'x': 'x', 'y': 'y'}[x]
            return '(.v %d)' % loc[x]
        def dst(x):
            if x in ps: assert x == 'z'; return 'z'
            return str(loc[x])
        for t in body.split(';'):
            t = t.strip()
            if not t: continue
            m = re.match(r'__m128d\s+(.*)$', t, re.S)
            if m:
                t = m[1]
                if '=' in t:
                    loc[t.split('=')[0].strip()] = 21 + len(loc)
                else:
                    for v in t.split(','): loc[v.strip()] = 21 + len(loc)
                    continue
            ins.append(statement(t, reg, dst, {}))
        o.append('/-- `%s`, SSE%s: lib/scalarsite_sse/%s:%d-%d -/\ndef %s%s (z : Nat) (x y : Reg) : List Ins :=\n  [%s]' %
                 (name, sse, file, l0, l1, pre + name, sse, ',\n   '.join(ins)))
    o.append('/-- the macro as compiled -/\ndef %s (sse3 : Bool) (z : Nat) (x y : Reg) : List Ins := if sse3 then %s3 z x y else %s2 z x y' % ((pre + name,) * 3))
    return o

def kernels(raw, src, file, pre, mac):
    o = []
    for m in re.finditer(r'void (ssed_\w+)\(([^)]*)\)', src):
        name = m[1]
        if name in SKIP: continue
        i = src.index('{', m.end()); d = 0; j = i
        while True:
            if src[j] == '{': d += 1
            if src[j] == '}':
                d -= 1
                if d == 0: break
            j += 1
        body = src[i + 1:j]
        l0 = src[:m.start()].count('\n') + 1; l1 = src[:j].count('\n') + 1
        params = [re.sub(r'^.*[\s*](\w+)$', r'\1', p.strip()) for p in m[2].split(',')]
        ps = [p for p in params if re.fullmatch(r'm\d?', p)]            # matrices: destination, left, right
        ptr = {}
        for a, b in re.findall(r'REAL64\*\s*(\w+_p)\s*=\s*(\w+)\s*;', body): ptr[a] = ps.index(b)
        regs = {}
        for v in re.findall(r'__m128d\s+([^;=]*);', body):
            for w in v.split(','):
                if w.strip() != 'scalar': regs[w.strip()] = len(regs)
        lo = re.search(r'for\(int i\s*=\s*0; i < n_mat; i\+\+\) *\{', body)
        head, loop = body[:lo.start()], body[lo.end():body.rindex('}')]
        mm = re.search(r'((?:\w+_p \+?= ?18;\s*)+)$|((?:\s*\w+_p\s*\+=\s*18;)+)\s*$', loop)
        inc = mm[0]; loop = loop[:mm.start()]
        assert sorted(re.findall(r'(\w+_p)\s*\+=\s*18', inc)) == sorted(ptr), (name, inc)
        def reg(x): return '(.c 0)' if x == 'scalar' else '(.v %d)' % regs[x]
        def regp(x): return '(.v 0)' if x == 'scalar' else '(.v %d)' % (regs[x] + 1)
        pren = []
        for t in head.split(';'):
            t = t.strip()
            if not t or t.startswith('__m128d') or t.startswith('REAL64*'): continue
            pren.append(statement(t, regp, lambda x: '0' if x == 'scalar' else str(regs[x] + 1), ptr))
        parts = []; cur = []
        loop = re.sub(r'(%s)\(([^()]*)\)\s*;?' % '|'.join(list(mac) or ['NONE']), r'\1<\2>;', loop)
        for t in loop.split(';'):
            t = t.strip()
            if not t: continue
            q = re.fullmatch(r'(\w+)<(\w+),\s*(\w+),\s*(\w+)>', t)
            if q:
                if cur: parts.append('[' + ', '.join(cur) + ']'); cur = []
                parts.append('%s s %d %s %s' % (pre + q[1], regs[q[2]], reg(q[3]), reg(q[4])))
            else:
                cur.append(statement(t, reg, lambda x: str(regs[x]), ptr))
        if cur: parts.append('[' + ', '.join(cur) + ']')
        doc = '/-- `%s(%s)`: lib/scalarsite_sse/%s:%d-%d; parameters 0, 1, 2 are `%s` -/' % (name, ', '.join(params), file, l0, l1, '`, `'.join(ps))
        o.append('%s\ndef %s : Kern where\n  pre := [%s]\n  body := fun s =>\n    List.flatten [\n      %s]' %
                 (doc, name, ', '.join(pren), ',\n      '.join(parts)))
    return o

out = []
for f in FILES:
    raw = open(DIR + f).read()
    src = strip(raw)
    pre = {'mm': 'mm', 'hm': 'hm', 'mh': 'mh', 'hh': 'hh'}.get(f.split('_')[4] if '_eq_' in f else '', '')
    mac = macros(src)
    out.append('/-! ### lib/scalarsite_sse/%s -/' % f)
    for n, v in mac.items(): out += macro_def(n, v, f, pre)
    out += kernels(raw, src, f, pre, mac)
print('import Verif.Sse\n/-\nThe kernels of lib/scalarsite_sse/sse_linalg_*_double.cc.  Written by tools/gen_sse.py from the text of these files.\n-/\nnamespace Verif.Sse\n')
print('\n\n'.join(out))
print('\nend Verif.Sse')

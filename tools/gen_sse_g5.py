#!/usr/bin/env python3
"""Reads the SSE kernels with chiral projections and the specialisations of `evaluate` that call them as text and writes Lean tables, in the form of
gen_sse_blas.py.  Two declarations of unused variables in the specialisations, initialised from a name that is not declared (lines 940 and 985: the header does
not compile), are left out."""
import re,sys
sys.dont_write_bytecode=True
import os; sys.path.insert(0,os.path.dirname(os.path.abspath(__file__)))
import gen_sse_blas as g
H='qdp_scalarsite_sse_blas_g5.h'
KF=['sse_blas_vaxpy3_g5.h','sse_blas_vaypx3_g5.h','sse_blas_vadd3_g5.h','sse_blas_vscal3_g5.h','sse_blas_vaxpby3_g5.h']
GENERIC=['scal_g5','xmayz_g5','axpbyz_g5','g5_axmbyz','axpbyz_ig5','axmbyz_ig5','xpayz_ig5','xmayz_ig5']
dropped=[]
def load(f,d=g.D):
    s=open(d+f).read()
    for p in(r'/\*.*?\*/',r'//[^\n]*',r'#if 0.*?#endif',r'#ifdef DEBUG_\w+.*?#endif'): s=re.sub(p,g.blank,s,flags=re.S)
    def drop(m): dropped.append(s[:m.start()].count('\n')+1); return ''
    if f==H: s=re.sub(r'REAL \*yptr = \(REAL \*\) &\(y[^;]*;(?=[^;]*;\s*scal_g5Proj)',drop,s)
    return re.sub(r'REAL32\b','REAL',s)
g.load=load

def kernel(f,s,m):
    name=m.group(1); pn=[re.sub(r'.*[ *]','',p.strip()) for p in m.group(2).split(',')]; size=pn[-1]; ptrs=pn[:-1]; out=ptrs[0]
    i=s.index('{',m.end()-1); j=g.match(s,i,'{','}'); b=re.sub(r'\s+',' ',s[i+1:j]); l0=s[:m.start()].count('\n')+1; l1=s[:j].count('\n')+1
    q=re.search(r'for\(int i=0; i < (\w+); i\+\+\) \{',b); assert q.group(1)==size
    e=g.match(b,q.end()-1,'{','}'); assert not b[e+1:].strip()
    scal=[p for p in re.findall(r'_mm_load_ss\((\w+)\)',b)]; scal=[p for p in ptrs if p in scal]
    arrs=[p for p in ptrs if p!=out and p not in scal]; assert len(arrs)<=2
    role=dict(zip(arrs,['.x','.y'])); roles=['.out' if p==out else '.s %d'%(2*scal.index(p)) if p in scal else role[p] for p in ptrs]
    R=g.Regs(4); pre=[]; zero=None; known=set(); ready=set()
    for st in [x.strip() for x in b[:q.start()].split(';') if x.strip()]:
        z=re.match(r'^REAL (\w+) ?= ?(?:\(REAL\))?0$',st)
        if z: zero=z.group(1); continue
        z=re.match(r'^(?:v4sf )?(\w+) ?= ?_mm_load_ss\((&?)(\w+)\)$',st)
        if z:
            r=R.get(z.group(1)); known.add(z.group(1))
            if z.group(2): assert z.group(3)==zero; v='.zero'
            else: v='(.s %d)'%(2*scal.index(z.group(3)))
            pre+=['.set %d %s'%(r[0],v)]+['.set %d .zero'%k for k in r[1:]]; continue
        z=re.match(r'^(\w+) ?= ?_mm_shuffle_ps\( ?(\w+), ?(\w+), ?0 ?\)$',st)
        if z:
            assert z.group(1)==z.group(2)==z.group(3) and z.group(1) in known; r=R.get(z.group(1)); ready.add(z.group(1))
            pre+=['.set %d (.r %d)'%(k,r[0]) for k in r[1:]]; continue
        raise Exception((f,name,st))
    pos={a:0 for a in arrs}; wpos=0; body=[]; n=[0]
    def lanes(t):
        if isinstance(t,str): assert t in ready,(name,t); return ['(.r %d)'%k for k in R.get(t)]
        fn,a=t
        if fn=='_mm_load_ps':
            z=re.match(r'^(\w+) ?\+ ?(\d+)$',a[0]); ar,off=z.group(1),int(z.group(2)); assert off>=pos[ar],(name,a)
            if off>pos[ar]: body.append('.skip %s %d'%(role[ar],off-pos[ar]))
            n[0]+=1; r=R.get('load%d'%n[0]); body.extend('.ld %d %s'%(k,role[ar]) for k in r); pos[ar]=off+4; return ['(.r %d)'%k for k in r]
        op={'_mm_add_ps':'add','_mm_sub_ps':'sub','_mm_mul_ps':'mul'}[fn]; x,y=lanes(a[0]),lanes(a[1]); return ['(.%s %s %s)'%(op,u,v) for u,v in zip(x,y)]
    inc={}
    for st in [x.strip() for x in b[q.end():e].split(';') if x.strip()]:
        z=re.match(r'^_mm_store_ps ?\((.*)\)$',st)
        if z:
            assert not inc; a=g.splitargs(z.group(1)); w=re.match(r'^(\w+) ?\+ ?(\d+)$',a[0]); assert w.group(1)==out and int(w.group(2))==wpos,(name,st,wpos)
            v=lanes(g.parse(a[1])); body.extend('.st %s'%x for x in v); wpos+=4; continue
        z=re.match(r'^(\w+) \+= 24$',st); assert z,(name,st); inc[z.group(1)]=24
    assert wpos==24 and set(inc)==set(arrs)|{out},(name,wpos,inc)
    for a in arrs:
        if pos[a]<24: body.append('.skip %s %d'%(role[a],24-pos[a]))
    return dict(name=name,file=f,l0=l0,l1=l1,roles=roles,pre=pre,body=body,nreg=len(R.m),n=len(ptrs))

def main():
    ks=[]
    for f in KF:
        s=load(f)
        for m in re.finditer(r'void\s+(\w+)\s*\(([^)]*)\)\s*\{',s): ks.append(kernel(f,s,m))
    o=['import Verif.SseBlas','import Verif.KernelTables','/-','The SSE kernels with chiral projections and the specialisations of `evaluate` that call them, written by tools/gen_sse_g5.py from the text of',
       'include/scalarsite_sse, in the form of `SseBlasTables`.  Lines 940 and 985 of qdp_scalarsite_sse_blas_g5.h, declarations of unused variables initialised from a','name that is not declared, are left out.','-/','namespace Verif.SseG5.Tables','open Verif.Kernel Verif.Blas Verif.SseBlas','']
    kd={k['name']:k for k in ks}
    for k in ks:
        o+=['/-- `%s`, include/scalarsite_sse/%s:%d-%d -/'%(k['name'],k['file'],k['l0'],k['l1']),'def %s : Kern := {'%k['name'],'  params := [%s]'%', '.join(k['roles']),
            '  nreg := %d'%k['nreg'],'  mul := 1','  sub := 0','  pre := %s'%g.lst(k['pre']),'  body := %s'%g.lst(k['body']),'  post := [] }','']
    es=g.evaluates(H,None); assert dropped==[940,985],dropped
    used=set()
    def call(c):
        k,a=c
        if k in kd: assert len(a)==kd[k]['n']
        else: assert k in GENERIC
        used.add(k); n=k if k in kd else 'Kernel.Tables.'+k
        return '⟨⟨%s, %s, 0⟩, [%s]⟩'%(n,n,', '.join(a))
    for k,e in enumerate(es):
        (o1,l1),(o2,l2)=e['calls']; assert l1 is None and l2 is None and e['same'] is None and not e['cplx']
        o+=['/-- include/scalarsite_sse/%s -/'%e['where'],'def g%02d : SEntry := {'%k,'  op := .%s'%e['op'],'  rhs := %s'%e['tree'],'  ordered := %s'%call(o1),'  same := none',
            '  unordered := %s'%call(o2),'  threaded := false }','']
    o+=['/-- the kernels -/','def kernels : List Kern := [%s]'%', '.join(k['name'] for k in ks),'','/-- the generic kernels of the same names, include/scalarsite_generic -/',
        'def generics : List Kern := [%s]'%', '.join('Kernel.Tables.'+k['name'] for k in ks),'',
        '/-- the specialisations -/','def entries : List SEntry := [%s]'%', '.join('g%02d'%k for k in range(len(es))),'','end Verif.SseG5.Tables']
    open(sys.argv[1],'w').write('\n'.join(o)+'\n')
    for e in es: print(e['where'],e['op'],e['tree'],e['calls'][0][0],'=' if e['calls'][0][0]==e['calls'][1][0] else e['calls'][1][0])
    print([k for k in kd if k not in used])
if __name__=='__main__': main()

#!/usr/bin/env python3
"""Reads the vector kernels of /repo/include/scalarsite_generic as text and writes them as Lean tables, statement by statement."""
import re,sys
D='/repo/include/scalarsite_generic/'
FILES=['generic_blas_vaxpy3.h','generic_blas_vaxmy3.h','generic_blas_vaxpby3.h','generic_blas_vaxmby3.h','generic_blas_vscal.h',
 'generic_blas_vadd.h','generic_blas_vsub.h','generic_blas_vcscal.h','generic_blas_vcaxpy3.h','generic_blas_vcaxmy3.h','generic_blas_vcaxpby3.h',
 'generic_blas_vcaxmby3.h','generic_blas_g5.h','generic_blas_vadd3_g5.h','generic_blas_vaxpby3_g5.h','generic_blas_vaxpy3_g5.h',
 'generic_blas_vaypx3_g5.h','generic_blas_vscal_g5.h']

def blank(m): return re.sub(r'[^\n]','',m.group(0))
def load(f):
    s=open(D+f).read()
    s=re.sub(r'/\*.*?\*/',blank,s,flags=re.S); s=re.sub(r'//[^\n]*',blank,s)
    s=re.sub(r'#if 0.*?#endif',blank,s,flags=re.S)
    return s

def tok(e):
    return re.findall(r'\s*(\d+\.?\d*|[A-Za-z_]\w*|[-+*()\[\]])',e)

class P:
    def __init__(self,env,e):
        self.t=tok(e); self.i=0; self.env=env
        # casts
        out=[];k=0
        while k<len(self.t):
            if self.t[k]=='(' and k+2<len(self.t) and self.t[k+1] in('double','REAL') and self.t[k+2]==')': k+=3; continue
            out.append(self.t[k]);k+=1
        self.t=out
    def peek(self): return self.t[self.i] if self.i<len(self.t) else None
    def nxt(self): self.i+=1; return self.t[self.i-1]
    def expr(self):
        if self.peek()=='-': self.nxt(); v='(.neg %s)'%self.term()
        else: v=self.term()
        while self.peek() in('+','-'):
            o=self.nxt(); w=self.term(); v='(.%s %s %s)'%({'+':'add','-':'sub'}[o],v,w)
        return v
    def term(self):
        v=self.fac()
        while self.peek()=='*': self.nxt(); v='(.mul %s %s)'%(v,self.fac())
        return v
    def fac(self):
        t=self.nxt()
        if t=='(':
            v=self.expr(); assert self.nxt()==')'; return v
        if re.match(r'^0\.?0*$',t): return '.zero'
        return self.env.atom(t)
    def full(self):
        v=self.expr(); assert self.i==len(self.t),(self.t,self.i); return v

class Env:
    def __init__(self): self.regs={}; self.scal={}
    def reg(self,n): return self.regs.setdefault(n,len(self.regs))
    def atom(self,n):
        if n in self.scal: return '(.s %d)'%self.scal[n]
        if n in self.regs: return '(.r %d)'%self.regs[n]
        raise Exception('unknown '+n)

def kernel(f,s,m):
    name=m.group(1); params=[re.sub(r'\s+',' ',p).strip() for p in m.group(2).split(',')]
    # body
    i=s.index('{',m.end()-1); d=0; j=i
    while True:
        if s[j]=='{': d+=1
        if s[j]=='}':
            d-=1
            if d==0: break
        j+=1
    body=s[i+1:j]; l0=s[:m.start()].count('\n')+1; l1=s[:j].count('\n')+1
    if s[:m.start()].rstrip().endswith('inline'): pass
    pn=[re.sub(r'.*[ *]','',p) for p in params]
    E=Env(); decl=set()
    size=pn[-1]; ptrs=pn[:-1]; out=ptrs[0]
    # which pointers are scalars
    scal=[p for p in ptrs if re.search(r'\*\s*\(?\s*%s\b(?!\s*\[)'%p,body)]
    arrs=[p for p in ptrs if p not in scal and p!=out]
    roles=[]
    for p in ptrs:
        roles.append('.out' if p==out else ('.s %d'%(2*scal.index(p)) if p in scal else ('.x' if arrs.index(p)==0 else '.y')))
    assert len(arrs)<=2
    arr={a:'.x' if k==0 else '.y' for k,a in enumerate(arrs)}
    cur={} # cursor -> array
    lens={size:(1,0)}
    pre=[];bod=[];post=[];tgt=pre;count=None;guard=False;loopvar=None
    body=body.replace('\n',' ')
    def cursor(a,ix):
        if ix==loopvar: return
        assert cur.setdefault(ix,a)==a,(ix,a,cur)
        assert [k for k in cur if cur[k]==a]==[ix]
    pos=0; depth=0
    rest=body
    def loadsin(e):
        return re.findall(r'(\w+)\[(\w+)\]',e)
    while rest.strip():
        rest=rest.lstrip()
        q=re.match(r'if\s*\(\s*(\w+)\s*>\s*0\s*\)\s*\{',rest)
        if q:
            assert q.group(1)==size and depth==0 and not pre; guard=True; depth+=1; rest=rest[q.end():]; continue
        q=re.match(r'for\s*\(\s*(int\s+)?(\w+)\s*=\s*0\s*;\s*(\w+)\s*<\s*([\w*-]+)\s*;\s*(\w+)\+\+\s*\)\s*\{',rest)
        if q:
            assert q.group(2)==q.group(3)==q.group(5) and count is None
            loopvar=q.group(2); b=q.group(4)
            mm=re.match(r'^(\d+)\*(\w+)$',b)
            if mm: lens['$len']=(lens[mm.group(2)][0]*int(mm.group(1)),0); b='$len'
            mm=re.match(r'^([\w$]+)(?:-(\d+))?$',b); a=lens[mm.group(1)]
            count=(a[0],a[1]+int(mm.group(2) or 0)); tgt=bod; depth+=1; rest=rest[q.end():]; inloop=depth; continue
        if rest[0]=='}':
            if tgt is bod and depth==inloop: tgt=post
            depth-=1; assert depth>=0; rest=rest[1:]; continue
        k=rest.index(';'); st=rest[:k].strip(); rest=rest[k+1:]
        if not st: continue
        q=re.match(r'^(?:double|REAL)\s+(\w+)$',st)
        if q: decl.add(q.group(1)); continue
        q=re.match(r'^int\s+(\w+)\s*=\s*(?:(\d+)\s*\*\s*(\w+)|(\w+)\s*\*\s*(\d+))$',st)
        if q:
            c=int(q.group(2) or q.group(5)); v=q.group(3) or q.group(4); lens[q.group(1)]=(lens[v][0]*c,0); continue
        q=re.match(r'^int\s+(\w+)(\s*=\s*0)?$',st)
        if q: continue
        q=re.match(r'^(?:(?:double|REAL)\s+)?(\w+)\s*=\s*(?:\((?:double|REAL)\))?\s*\(?\*\s*\(?(\w+)\s*(?:\+\s*(\d+))?\)?\)?$',st)
        if q and q.group(2) in scal and tgt is pre and not pre:
            E.scal[q.group(1)]=2*scal.index(q.group(2))+int(q.group(3) or 0); continue
        q=re.match(r'^(\w+)\s*=\s*(?:\(double\))?\s*(\w+)\[(\w+)\+\+\]$',st)
        if q:
            cursor(q.group(2),q.group(3)); tgt.append('.ld %d %s'%(E.reg(q.group(1)),arr[q.group(2)])); continue
        q=re.match(r'^(\w+)\s*=\s*\(double\)\s*(\w+)\[(\w+)(?:\+(\d+))?\]$',st)
        if q and q.group(3)!=loopvar:
            cursor(q.group(2),q.group(3)); tgt.append('.pull %d %s %s'%(E.reg(q.group(1)),arr[q.group(2)],q.group(4) or '0')); continue
        q=re.match(r'^(\w+)\[(\w+)\+\+\]\s*=\s*(.*)$',st)
        if q:
            assert q.group(1)==out; cursor(out,q.group(2)); tgt.append('.st %s'%P(E,q.group(3)).full()); continue
        q=re.match(r'^(\w+)\[(\w+)\]\s*=\s*(.*)$',st)
        if q:
            assert q.group(1)==out and q.group(2)==loopvar and tgt is bod
            e=q.group(3)
            for a,ix in loadsin(e):
                assert ix==loopvar
                r=E.reg('$'+a); tgt.append('.ld %d %s'%(r,arr[a]))
            e=re.sub(r'(\w+)\[(\w+)\]',lambda z:'VV'+z.group(1),e)
            for a in arrs: E.regs['VV'+a]=E.regs.get('$'+a)
            E.regs={k:v for k,v in E.regs.items() if v is not None}
            tgt.append('.st %s'%P(E,e).full()); continue
        q=re.match(r'^(\w+)\s*\+=\s*(\d+)$',st)
        if q and q.group(1).startswith('index'):
            skips.append((tgt,len(tgt),q.group(1),int(q.group(2)))); tgt.append(None); continue
        q=re.match(r'^(\w+)\s*([-+]?)=\s*(.*)$',st)
        if q and q.group(1) in decl:
            try: e=P(E,q.group(3)).full()
            except Exception as x: raise Exception(f,name,st,x)
            r=E.reg(q.group(1))
            if q.group(2): e='(.%s (.r %d) %s)'%({'+':'add','-':'sub'}[q.group(2)],r,e)
            tgt.append('.set %d %s'%(r,e)); continue
        raise Exception('%s: %s: cannot read "%s"'%(f,name,st))
    for (t,ix,c,k) in skips:
        assert cur[c]!=out; t[ix]='.skip %s %d'%(arr[cur[c]],k)
    del skips[:]
    assert depth==0 and count
    assert guard or not(pre or post)
    return dict(name=name,file=f,l0=l0,l1=l1,roles=roles,pre=pre,body=bod,post=post,count=count,nreg=max(list(E.regs.values())+[-1])+1,n=len(scal))
skips=[]

def wrap(xs):
    lines=[];cur='  ';
    for k,x in enumerate(xs):
        t=x+(', ' if k+1<len(xs) else '')
        if len(cur)+len(t)>140: lines.append(cur.rstrip()); cur='    '
        cur+=t
    lines.append(cur); return '\n'.join(lines)

def lst(xs):
    return '[]' if not xs else '[\n  '+wrap(xs).strip()+']'

def main():
    ks=[]
    for f in FILES:
        s=load(f)
        for m in re.finditer(r'void\s+(\w+)\s*\(([^)]*)\)\s*\{',s): ks.append(kernel(f,s,m))
    o=['import Verif.Kernel','/-','The vector kernels of include/scalarsite_generic, written by tools/gen_kernels.py from the text of the headers: one entry per statement,',
       'casts between `float` and `double` dropped, declarations dropped, and the loop `for i: Out[i] = e(X[i], Y[i])` written with one cursor per array.','-/','namespace Verif.Kernel.Tables','open Verif.Kernel','']
    for k in ks:
        o.append('/-- `%s`, include/scalarsite_generic/%s:%d-%d -/'%(k['name'],k['file'],k['l0'],k['l1']))
        o.append('def %s : Kern := {'%k['name'])
        o.append('  params := [%s]'%', '.join(k['roles'])); o.append('  nreg := %d'%k['nreg'])
        o.append('  mul := %d'%k['count'][0]); o.append('  sub := %d'%k['count'][1])
        for nm in('pre','body','post'): o.append('  %s := %s'%(nm,lst(k[nm])))
        o[-1]+=' }'; o.append('')
    o.append('end Verif.Kernel.Tables')
    open(sys.argv[1],'w').write('\n'.join(o)+'\n')
    return ks
if __name__=='__main__':
    ks=main()
    for k in ks: print(k['name'],k['file'],k['l0'],k['l1'],k['roles'],k['count'],len(k['pre']),len(k['body']),len(k['post']),k['nreg'])

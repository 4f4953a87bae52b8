#!/usr/bin/env python3
"""Reads the SSE vector kernels and the specialisations of `evaluate` that call them as text and writes Lean tables: the kernels number by number,
for every specialisation the assignment operator, the expression, and which operand is passed at which place of which kernel, for subsets with and
without ordered representation; for the former also the branch taken if the destination is one of the operands."""
import re,sys
D='/repo/include/scalarsite_sse/'
L='/repo/lib/scalarsite_sse/'
SETS=[('qdp_scalarsite_sse_blas.h','qdp_scalarsite_sse_blas_wrapper.h'),
      ('qdp_scalarsite_sse_blas_double.h','qdp_scalarsite_sse_blas_double_wrapper.h')]
KFILES=[('qdp_scalarsite_sse.cc',['vaxpy3','vaxmy3','vadd','vsub','vscal','vaxpby3','vaxmby3']),('sse_blas_vaxpy4_double.cc',None),
  ('sse_blas_vaypx4_double.cc',None),('sse_blas_vaxmyz4_double.cc',None),('sse_blas_vaxpbyz4_double.cc',None),
  ('sse_blas_vaxmbyz4_double.cc',None),('sse_blas_vscal4_double.cc',None)]
def blank(m): return re.sub(r'[^\n]','',m.group(0))
def load(f,d=D):
    s=open(d+f).read()
    s=re.sub(r'/\*.*?\*/',blank,s,flags=re.S); s=re.sub(r'//[^\n]*',blank,s)
    s=re.sub(r'#if 0.*?#endif',blank,s,flags=re.S)
    s=re.sub(r'#ifdef DEBUG_\w+.*?#endif',blank,s,flags=re.S)
    s=re.sub(r'#if defined\(QDP_SCALARSITE_DEBUG\).*?#endif',blank,s,flags=re.S)
    if d==D:
        assert len(re.findall(r'\bREAL\b',s))<=1; s=re.sub(r'REAL(32|64)\b','REAL',s); s=re.sub(r'\bDVec\b','TVec',s); s=re.sub(r'\bDScal\b','TScal',s)
    return s
def match(s,i,o,c):
    d=0
    while True:
        if s[i]==o: d+=1
        if s[i]==c:
            d-=1
            if d==0: return i
        i+=1
def splitargs(t):
    r=[];d=0;cur=''
    for ch in t:
        if ch in '<(': d+=1
        if ch in '>)': d-=1
        if ch==',' and d==0: r.append(cur.strip());cur=''
        else: cur+=ch
    r.append(cur.strip()); return r
OPS={'OpAdd':'add','OpSubtract':'sub','OpMultiply':'mul','OpGammaConstMultiply':'gmul'}
FNS={'OpIdentity':'id','FnChiralProjectPlus':'projPlus','FnChiralProjectMinus':'projMinus','FnTimesI':'timesI'}
def node(t):
    t=t.strip()
    m=re.match(r'^(\w+)\s*<(.*)>$',t,re.S)
    if not m: raise Exception('type '+t)
    a=splitargs(m.group(2))
    n=m.group(1)
    if n=='Reference':
        q=re.match(r'^QDPType<\s*(\w+)\s*,\s*(OLattice|OScalar)\s*<\s*(\w+)\s*>\s*>$',a[0].strip())
        assert q and q.group(1)==q.group(3),a
        if q.group(2)=='OLattice':
            assert q.group(1) in('TVec','CTVec'); return '.vec',None
        assert q.group(1) in('TScal','CScal'); return '.scal',q.group(1)=='CScal'
    if n=='BinaryNode':
        x,c1=node(a[1]); y,c2=node(a[2]); return '(.bin .%s %s %s)'%(OPS[a[0]],x,y),(c1 if c1 is not None else c2)
    if n=='UnaryNode':
        x,c=node(a[1]); return '(.un .%s %s)'%(FNS[a[0]],x),c
    if n=='GammaConst':
        assert a==['Ns','Ns*Ns-1']; return '(.gamma 15)',None
    raise Exception('type '+t)

def wrappers(s):
    W={}
    structs={}
    for m in re.finditer(r'struct\s+(\w+)\s*\{',s):
        e=match(s,m.end()-1,'{','}'); b=s[m.end():e]; nm=m.group(1)
        ct=re.search(r'\b%s\s*\('%nm,b)
        if ct:
            pe=match(b,ct.end()-1,'(',')'); ps=[re.sub(r'.*[ &*]','',re.sub(r'\s+',' ',p).strip()) if '(*' not in p else re.search(r'\(\*(\w+)\)',p).group(1) for p in splitargs(b[ct.end():pe])]
            ini=b[pe+1:b.index('{',pe)]
            mp=dict((y,x) for x,y in re.findall(r'(\w+)\((\w+)\)',ini))
            structs[nm]=[mp[p] for p in ps]
        else:
            structs[nm]=[]
            for st in b.split(';'):
                st=st.strip()
                if not st: continue
                q=re.search(r'\(\*(\w+)\)',st)
                structs[nm].append(q.group(1) if q else re.search(r'(\w+)$',st).group(1))
    for m in re.finditer(r'void\s+(\w+)\s*\(int lo, int hi, int myId,\s*(\w+)\s*\*\s*(?:a|arg)\)\s*\{',s):
        e=match(s,m.end()-1,'{','}'); W[m.group(1)]=(m.group(2),structs[m.group(2)],s[m.end():e],s[:m.start()].count('\n')+1,s[:e].count('\n')+1)
    return W

def stmts(b):
    b=re.sub(r'\s*=\s*',' = ',re.sub(r'\s+',' ',b))
    return [x.strip() for x in re.split(r'[;]',b) if x.strip()]

def calluser(W,func,args,unordered):
    """args: list of values for the struct's fields; returns kernel name and values at its parameters"""
    ty,fields,b,l0,l1=W[func]
    assert len(fields)==len(args),(func,fields,args)
    env={}; F=dict(zip(fields,args))
    b=re.sub(r'\s+',' ',b)
    # a branch on a constant
    q=re.search(r'if \((\w+)\)\s*\{(.*?)\}\s*\}\s*else \{(.*)\}\s*$',b) 
    if q:
        pre=b[:q.start()]; 
        c=F[q.group(1)]; assert c in(('int',0),('int',1)),c
        b=pre+(q.group(2)+'}' if c[1] else q.group(3))
    if unordered:
        q=re.search(r'for\s*\(\s*int j\s*=\s*lo;\s*j\s*<\s*hi;\s*j\+\+\s*\)\s*\{',b); assert q,(func,b)
        head=b[:q.start()]; e=match(b,q.end()-1,'{','}'); loop=b[q.end():e]; assert not b[e+1:].strip(' }'),(func,b[e+1:])
        ss=[('h',x) for x in stmts(head)]+[('l',x) for x in stmts(loop)]
    else: ss=[('h',x) for x in stmts(b)]
    res=None; site=None; n=None; index=set(); alln=None
    for where,st in ss:
        q=re.match(r'^void \(\*(\w+)\)\s*\([^)]*\)\s*=\s*(?:a|arg)->(\w+)$',st)
        if q: env[q.group(1)]=F[q.group(2)]; continue
        q=re.match(r'^(?:const )?(?:OLattice< ?C?TVec ?> ?& ?|REAL ?\* ?|const int ?\* ?|int )(\w+)\s*=\s*(?:a|arg)->(\w+)$',st)
        if q: env[q.group(1)]=F[q.group(2)]; continue
        q=re.match(r'^int (\w+) = \(?hi ?- ?lo\)?$',st)
        if q: env[q.group(1)]=('n',); continue
        if st in('int index = lo * 24','int index = lo*24','int index = 24*lo'): scaled=True; continue
        if st=='int index = lo': scaled=False; continue
        q=re.match(r'^(\w+) = &(\w+)\[(24\*)?index\]$',st)
        if q:
            assert q.group(1)==q.group(2) and env[q.group(1)][0]=='fld' and scaled==(q.group(3) is None),(func,st,env); index.add(q.group(1)); continue
        if re.match(r'^int i\s*=\s*tab\[j\]$',st):
            assert env['tab']==('tab',); site='i'; continue
        q=re.match(r'^REAL ?\* ?(\w+) = (?:\(REAL ?\*\))? ?(?:&\(|\(&)(\w+)\.elem\(i\)\.elem\(0\)\.elem\(0\)\.real\(\)\)$',st)
        if q: assert site; env[q.group(1)]=('ptr',)+env[q.group(2)][1:]; continue
        q=re.match(r'^(\w+)\s*\(([^()]*)\)$',st)
        if q:
            k=q.group(1)
            if k in env: assert env[k][0]=='fun'; k=env[k][1]
            av=[x.strip() for x in q.group(2).split(',')]
            last=av[-1]
            if unordered: assert last=='1' or env.get(last)==('int',1),(func,last,env.get(last))
            else: assert env[last]==('n',),(func,last)
            vals=[]
            for x in av[:-1]:
                v=env[x]
                if v[0]=='fld':
                    assert not unordered and x in index,(func,x); vals.append(v[1])
                elif v[0]=='ptr': vals.append(v[1])
                elif v[0]=='sc': vals.append(v[1])
                else: raise Exception((func,x,v))
            assert res is None; res=(k,vals); continue
        raise Exception('%s: cannot read "%s"'%(func,st))
    return res,(l0,l1)

def evaluates(f,w):
    s=load(f); W=wrappers(load(w)) if w else {}; out=[]
    for m in re.finditer(r'void\s+evaluate\s*\(',s):
        pe=match(s,m.end()-1,'(',')'); ps=splitargs(s[m.end():pe]); 
        bo=s.index('{',pe); be=match(s,bo,'{','}'); body=s[bo+1:be]
        l0=s[:m.start()].count('\n')+1; l1=s[:be].count('\n')+1
        where='%s:%d-%d'%(f,l0,l1)
        assert len(ps)==4,(where,ps)
        assert re.match(r'^OLattice<\s*C?TVec\s*>\s*&\s*d$',ps[0]) and re.match(r'^const Subset\s*&\s*s$',ps[3]),(where,ps)
        op=re.match(r'^const Op(\w+)\s*&\s*op$',ps[1]).group(1)
        q=re.match(r'^const QDPExpr\s*<(.*)>\s*&\s*rhs$',ps[2],re.S); qa=splitargs(q.group(1)); tree,cp=node(qa[0])
        env={'d':('fld','.dest')}
        def path(e):
            e=e.replace(' ','')
            mm=re.match(r'^\(?rhs\.expression\(\)((?:\.\w+\(\))*)\)?$',e)
            base=[]
            if not mm:
                mm=re.match(r'^\(?(\w+)((?:\.\w+\(\))*)\)?$',e); base=env[mm.group(1)][1]; ch=mm.group(2)
            else: ch=mm.group(1)
            return base+[{'left':'.l','right':'.r','child':'.c'}[z] for z in re.findall(r'\.(\w+)\(\)',ch)]
        def do(st):
            st=st.strip()
            q=re.match(r'^typedef .*$',st)
            if q: return True
            q=re.match(r'^const (O?\w+)\s*(<[^&]*>)?\s*& ?(\w+) = static_cast ?<[^&]*& ?> ?\((.*)\)$',st)
            if q:
                ty=q.group(1); p=path(q.group(4))
                env[q.group(3)]=({'OLattice':'fld','OScalar':'scal'}.get(ty,'node'),p) ; return True
            q=re.match(r'^REAL (\w+) = (-?) ?\(? ?(\w+)((?:\.elem\(\))+) ?\)?$',st)
            if q:
                v=env[q.group(3)]; assert v[0]=='scal' and q.group(4).count('elem')==4
                env[q.group(1)]=('num',('.neg ' if q.group(2) else '.sc ')+pth(v[1])); return True
            q=re.match(r'^REAL (\w+) = (?:\(REAL\))?(?:1|One|\(REAL\)1)(?:\.0)? ?/ ?\(?(\w+)((?:\.elem\(\))+)\)?$',st)
            if q:
                v=env[q.group(2)]; assert v[0]=='scal'
                env[q.group(1)]=('num','.inv '+pth(v[1])); return True
            q=re.match(r'^REAL (\w+) = (?:\(REAL\))?\(?1(?:\.0)?\)?$',st)
            if q: env[q.group(1)]=('num','.one'); return True
            q=re.match(r'^REAL (\w+) = (?:\(REAL\))?\(?-1(?:\.0)?\)?$',st)
            if q: env[q.group(1)]=('num','.mone'); return True
            q=re.match(r'^REAL ?\* ?(\w+) = (?:\(REAL ?\*\))? ?&(\w+)$',st)
            if q: v=env[q.group(2)]; assert v[0]=='num'; env[q.group(1)]=('sc',v[1]); return True
            q=re.match(r'^REAL ?\* ?(\w+) = (?:\(REAL ?\*\))? ?\(?& ?\(?(\w+)\.elem\(s\.start\(\)\)\.elem\(0\)\.elem\(0\)\.real\(\)\)?$',st)
            if q: env[q.group(1)]=('fld',fldv(env[q.group(2)])); return True
            q=re.match(r'^REAL ?\* ?(\w+) = (?:\(REAL ?\*\))? ?& ?\(?(\w+)((?:\.elem\(\))+)(\.real\(\))?\)?$',st)
            if q:
                v=env[q.group(2)]; assert v[0] in('scal','nscal'),(where,st,v); assert (q.group(4) is not None)==bool(cp) and q.group(3).count('elem')==(3 if cp else 4),(where,st)
                env[q.group(1)]=('sc',('.sc ' if v[0]=='scal' else '.neg ')+pth(v[1])); return True
            q=re.match(r'^(?:OScalar<\s*C?T?Scal\s*>|\w+) (\w+) = ?- ?(\w+)$',st)
            if q and env.get(q.group(2),('',))[0]=='scal': env[q.group(1)]=('nscal',env[q.group(2)][1]); return True
            q=re.match(r'^int (\w+) = \(? ?s\.end\(\) ?- ?s\.start\(\) ?\+ ?1 ?\)?$',st)
            if q: env[q.group(1)]=('total',); return True
            if re.match(r'^const int ?\* ?tab = s\.siteTable\(\)\.slice\(\)$',st): env['tab']=('tab',); return True
            q=re.match(r'^int (\w+) = s\.numSiteTable\(\)$',st)
            if q: env[q.group(1)]=('size',); return True
            q=re.match(r'^REAL ?\* ?(\w+) = (\w+)$',st)
            if q and q.group(2) in env: env[q.group(1)]=env[q.group(2)]; return True
            q=re.match(r'^int (\w+) = (\d+)$',st)
            if q: env[q.group(1)]=('int',int(q.group(2))); return True
            return False
        def pth(p): return '['+', '.join(p)+']'
        def fldv(v):
            assert v[0]=='fld'; return v[1] if isinstance(v[1],str) else '.at '+pth(v[1])
        b=re.sub(r'\s+',' ',body)
        i=re.search(r'if ?\( ?s\.hasOrderedRep\(\) ?\) ?\{',b); e1=match(b,i.end()-1,'{','}')
        j=re.match(r'^ ?else ?\{',b[e1+1:]); e2=match(b,e1+1+j.end()-1,'{','}')
        assert not b[e2+1:].strip(),(where,b[e2+1:])
        for st in stmts(b[:i.start()]):
            if not do(st): raise Exception('%s: cannot read "%s"'%(where,st))
        save=dict(env); calls=[]
        blks=[(False,None,b[i.end():e1]),(True,None,b[e1+1+j.end():e2])]
        same=None
        q=re.search(r'if ?\( ?(\w+) ?== ?(\w+) ?\) ?\{',blks[0][2])
        if q:
            bl=blks[0][2]; f1=match(bl,q.end()-1,'{','}'); r=re.match(r'^ ?else ?\{',bl[f1+1:]); f2=match(bl,f1+1+r.end()-1,'{','}')
            assert not bl[f2+1:].strip(),(where,bl[f2+1:])
            blks=[(False,(q.group(1),q.group(2)),bl[:q.start()]+bl[q.end():f1]),(False,None,bl[:q.start()]+bl[f1+1+r.end():f2]),blks[1]]
        for un,eq,blk in blks:
            env.clear(); env.update(save); args=None; got=None; inl=0
            for st in stmts(blk):
                q=re.match(r'^(\w+_user_arg) (\w+) = \{(.*)\}$',st) or re.match(r'^(\w+_user_arg) (\w+) ?\((.*)\)$',st)
                if q: args=(q.group(1),q.group(2),[x.strip() for x in q.group(3).split(',') if x.strip()]); continue
                q=re.match(r'^dispatch_to_threads ?\((\w+), (\w+), (\w+) ?\)$',st)
                if q:
                    assert env[q.group(1)]==(('size',) if un else ('total',)) and args[1]==q.group(2) and W[q.group(3)][0]==args[0],(where,st)
                    vals=[]
                    for x in args[2]:
                        if x.isdigit(): vals.append(('int',int(x)))
                        elif x[0]=='&':
                            v=env[x[1:]]; assert v[0]=='num',(where,x,v); vals.append(('sc',v[1]))
                        elif x in env:
                            v=env[x]
                            if v[0]=='fld': vals.append(('fld',fldv(v)))
                            else: vals.append(v)
                        else:
                            assert re.match(r'^\w+$',x),(where,x); vals.append(('fun',x))
                    got=calluser(W,q.group(3),vals,un); continue
                # a call of the kernel by the main thread
                q=re.match(r'^(\w+) ?\(([^()]*)\)$',st)
                if q:
                    av=[x.strip() for x in q.group(2).split(',')]; ln=s[:bo].count('\n')+1
                    assert (un and av[-1]=='1' and inl) or env.get(av[-1])==('total',),(where,st)
                    vals=[]
                    for x in av[:-1]:
                        v=env[x]; assert v[0] in('fld','sc'); vals.append(fldv(v) if v[0]=='fld' else v[1])
                    got=((q.group(1),vals),None); continue
                q=re.match(r'^for ?\( ?int j = 0$',st)
                if q and un: inl=1; continue
                if un and inl==1 and re.match(r'^j < s\.numSiteTable\(\)$',st): inl=2; continue
                if un and inl==2 and re.match(r'^j\+\+ ?\) ?\{ ?int i = tab\[j\]$',st): assert env['tab']==('tab',); inl=3; continue
                if un and inl==3 and st=='}': continue
                q=re.match(r'^REAL ?\* ?(\w+) = (?:\(REAL ?\*\))? ?&\((\w+)\.elem\(i\)\.elem\(0\)\.elem\(0\)\.real\(\)\)$',st)
                if un and inl==3 and q: env[q.group(1)]=('fld',fldv(env[q.group(2)])); continue
                if not do(st): raise Exception('%s: cannot read "%s"'%(where,st))
            assert got
            if eq:
                assert env[eq[0]]==('fld','.dest') and env[eq[1]][1].startswith('.at '),(where,eq,env); same=(env[eq[1]][1][4:],got)
            else: calls.append(got)
        out.append(dict(where=where,op=op[0].lower()+op[1:],tree=tree,cplx=bool(cp),calls=calls,same=same,w=w))
    return out

# ---- kernels

class Regs:
    """numbers of the registers; a vector register takes one number per lane.  Temporaries of the code before the loop get names of their own."""
    def __init__(self,w): self.w=w; self.m={}
    def get(self,n): return [self.m.setdefault((n,k),len(self.m)) for k in range(self.w)]

def parse(e):
    """expression of intrinsics -> tree"""
    e=e.strip()
    m=re.match(r'^(\w+)\s*\(',e)
    if m and match(e,m.end()-1,'(',')')==len(e)-1: return (m.group(1),[parse(x) for x in splitargs(e[m.end():-1])])
    return e

def kernel(f,s,m):
    name=m.group(1); params=[re.sub(r'\s+',' ',p).strip() for p in m.group(2).split(',')]
    i=s.index('{',m.end()-1); j=match(s,i,'{','}')
    body=s[i+1:j]; l0=s[:m.start()].count('\n')+1; l1=s[:j].count('\n')+1
    pn=[re.sub(r'.*[ *]','',p) for p in params]; size=pn[-1]; ptrs=pn[:-1]
    scal=re.findall(r'_mm_load_s[sd]\((\w+)\)',body); assert len(set(scal))==len(scal)
    single='_ps(' in body; w=4 if single else 2; sx='_ps' if single else '_pd'
    assert single!=('_pd(' in body)
    R=Regs(w)
    ali={p:p for p in ptrs if p not in scal}; sizes={size}
    out=ptrs[0]; assert out not in scal
    # arrays read
    b=re.sub(r'\s+',' ',body)
    for q in re.finditer(r'double \*(\w+) ?= ?(\w+) ?;',b): assert q.group(2) in ali; ali[q.group(1)]=q.group(2)
    reads=[]
    for q in re.finditer(r'_mm_load_p[sd]\( ?(\w+)',b):
        a=ali[q.group(1)]
        if a not in reads: reads.append(a)
    ins=[p for p in ptrs if p in reads and p!=out]; inplace=out in reads
    assert len(ins)+inplace<=2
    role={}
    if len(ins)==2: role={ins[0]:'.x',ins[1]:'.y'}
    else: role={ins[0]:'.x'}
    if inplace: role[out]='.y'
    roles=[]
    for p in ptrs: roles.append('.out' if p==out else '.s %d'%(2*scal.index(p)) if p in scal else role[p])
    if inplace: roles.append('.y')
    def block(t,prologue,loopvar=None,step=None):
        """statements -> list of Stmt, increments of the pointers"""
        o=[]; pos={}; live=set(); inc={}; tmp=[0]; written=[]
        def addr(e):
            q=re.match(r'^(\w+)(?: ?\+ ?(\w+))?$',e.strip()); assert q,(name,e)
            off=q.group(2) or '0'
            if loopvar: assert off==loopvar,(name,e); off='0'
            return ali[q.group(1)],int(off)
        def nm(v): return ('pre:' if prologue and v not in keep else '')+v
        def lanes(t):
            if isinstance(t,str):
                if not prologue: assert t in live or t in keep,(name,'read before written',t)
                return ['(.r %d)'%k for k in R.get(nm(t))]
            fn,a=t
            if fn=='_mm_load'+sx:
                ar,off=addr(a[0]); assert pos.get(ar,0)==off,(name,a,pos); assert ar not in written or off>=wpos.get(ar,0)
                tmp[0]+=1; r=R.get('load%d'%tmp[0])
                for k in r: o.append('.ld %d %s'%(k,role[ar]))
                pos[ar]=off+w; return ['(.r %d)'%k for k in r]
            if fn in('_mm_load_ss','_mm_load_sd'): return ['(.s %d)'%(2*scal.index(a[0]))]+['.zero']*(w-1)
            if fn=='_mm_setzero'+sx: return ['.zero']*w
            if fn=='_mm_shuffle_pd':
                x,y=lanes(a[0]),lanes(a[1]); c=int(a[2],0); return [x[c&1],y[(c>>1)&1]]
            if fn=='_mm_shuffle_ps':
                x,y=lanes(a[0]),lanes(a[1]); c=int(a[2],0); return [x[c&3],x[(c>>2)&3],y[(c>>4)&3],y[(c>>6)&3]]
            q=re.match(r'^_mm_(add|sub|mul)'+sx+'$',fn); assert q,(name,t)
            x,y=lanes(a[0]),lanes(a[1]); return ['(.%s %s %s)'%(q.group(1),u,v) for u,v in zip(x,y)]
        wpos={}
        for st in [x.strip() for x in t.split(';') if x.strip()]:
            if re.match(r'^PREFETCH\w*\(\(\(const char ?\*\)\w+\) ?\+ ?\d+\)$',st): continue
            q=re.match(r'^(?:__m128d? )?(\w+) ?= ?(_mm_.*)$',st)
            if q:
                tr=parse(q.group(2))
                if not isinstance(tr,str) and tr[0]=='_mm_load'+sx:
                    ar,off=addr(tr[1][0]); assert pos.get(ar,0)==off,(name,st,pos)
                    for k in R.get(nm(q.group(1))): o.append('.ld %d %s'%(k,role[ar]))
                    pos[ar]=off+w
                else:
                    v=lanes(tr); r=R.get(nm(q.group(1)))
                    # all lanes at once: no lane read after it is written
                    if any('(.r %d)'%r[k] in v[l] for l in range(w) for k in range(l)):
                        h=R.get('old:'+q.group(1))
                        for k in range(w): o.append('.set %d (.r %d)'%(h[k],r[k]))
                        for k in range(w): v=[re.sub(r'\(\.r %d\)'%r[k],'(.r %d)'%h[k],x) for x in v]
                    for k in range(w): o.append('.set %d %s'%(r[k],v[k]))
                live.add(q.group(1)); continue
            q=re.match(r'^_mm_(store|stream)'+sx+r' ?\((.*)\)$',st)
            if q:
                a=splitargs(q.group(2)); ar,off=addr(a[0]); assert ar==out and wpos.get(ar,0)==off,(name,st,wpos)
                v=lanes(parse(a[1]))
                for x in v: o.append('.st %s'%x)
                wpos[ar]=off+w; continue
            q=re.match(r'^(\w+) ?\+= ?(\d+)$',st)
            if q: inc[ali[q.group(1)]]=int(q.group(2)); continue
            raise Exception('%s: %s: cannot read "%s"'%(f,name,st))
        if not prologue:
            stride=step if loopvar else set(inc.values()).pop()
            if not loopvar:
                assert set(inc.values())=={stride} and set(inc)==set(reads)|{out},(name,inc)
            assert all(pos[a]==stride for a in reads) and wpos=={out:stride},(name,pos,wpos)
            return o,stride
        assert not inc and not wpos and not pos
        return o,None
    # find loops
    keep=set(re.findall(r'(\w+) ?= ?_mm_load_s[sd]\(',b))
    pro=re.split(r'\bif ?\(|\bfor ?\(',b,maxsplit=1)[0]
    rest=b[len(pro):]
    loops=[]
    dec=[]
    for st in pro.split(';'):
        st=st.strip()
        if not st or re.match(r'^__m128d? \w+$',st): continue
        q=re.match(r'^int (\w+) = (\w+)$',st)
        if q: assert q.group(2) in sizes; sizes.add(q.group(1)); continue
        if re.match(r'^double \*\w+ ?= ?\w+$',st): continue
        dec.append(st)
    pre,_=block(';'.join(dec),True)
    def loop(t):
        t=t.strip()
        while True:
            q=re.match(r'^PREFETCH\w*\(\(\(const char ?\*\)\w+\) ?\+ ?\d+\) ?; ?',t)
            if not q: break
            t=t[q.end():]
        q=re.match(r'^for ?\(int (\w+) ?= ?0; ?\1 ?< ?([\w*]+); ?\1(\+\+|\+=2)\) ?\{',t)
        if q:
            e=match(t,q.end()-1,'{','}'); assert not t[e+1:].strip()
            fs=q.group(2).split('*'); assert [x for x in fs if not x.isdigit()]==[size]
            c=1
            for x in fs: c*=int(x) if x.isdigit() else 1
            if q.group(3)=='+=2':
                bd,st=block(t[q.end():e],False,q.group(1),2); return dict(mul=c//2,body=bd,stride=st)
            bd,st=block(t[q.end():e],False); return dict(mul=c,body=bd,stride=st)
        q=re.match(r'^for ?\( ?; (\w+)-- > 0; \) ?\{',t); assert q and q.group(1) in sizes,(name,t[:80])
        e=match(t,q.end()-1,'{','}'); assert not t[e+1:].strip()
        bd,st=block(t[q.end():e],False); return dict(mul=1,body=bd,stride=st)
    q=re.match(r'^if ?\( ?(\w+) ?< ?L2BY2 ?\) ?\{',rest)
    if q:
        assert q.group(1)==size
        lim=re.search(r'#define L2BY2 (\d+)',open(L+f).read()).group(1)
        e=match(rest,q.end()-1,'{','}'); r=re.match(r'^ ?else ?\{',rest[e+1:]); e2=match(rest,e+1+r.end()-1,'{','}'); assert not rest[e2+1:].strip()
        ls=[loop(rest[q.end():e]),loop(rest[e+1+r.end():e2])]
    else: lim=None; ls=[loop(rest)]
    return dict(name=name,file=f,l0=l0,l1=l1,roles=roles,inplace=inplace,pre=pre,loops=ls,nreg=len(R.m),lim=lim,n=len(ptrs))

def wrap(xs):
    lines=[];cur='  ';
    for k,x in enumerate(xs):
        t=x+(', ' if k+1<len(xs) else '')
        if len(cur)+len(t)>140: lines.append(cur.rstrip()); cur='    '
        cur+=t
    lines.append(cur); return '\n'.join(lines)
def lst(xs): return '[]' if not xs else '[\n  '+wrap(xs).strip()+']'

def main():
    ks=[]
    for f,names in KFILES:
        s=load(f,L)
        for m in re.finditer(r'void\s+(\w+)\s*\(([^)]*)\)\s*\{',s):
            if names is None or m.group(1) in names: ks.append(kernel(f,s,m))
    o=['import Verif.SseBlas','/-','The SSE vector kernels and the specialisations of `evaluate` that call them, written by tools/gen_sse_blas.py from the text of lib/scalarsite_sse and',
       'include/scalarsite_sse.  A load or store of a vector is written as loads or stores of its numbers in order, an operation on vectors lane by lane; prefetches',
       'are dropped; temporaries of the code before the loop have registers of their own.  A parameter behind which a kernel both reads and writes stands in the list',
       'of parameters twice.','-/',
       'namespace Verif.SseBlas.Tables','open Verif.Kernel Verif.Blas','']
    kd={}
    for k in ks:
        kd[k['name']]=k
        for n,l in enumerate(k['loops']):
            nm=k['name']+('' if len(k['loops'])==1 else ('Small','Big')[n])
            o.append('/-- `%s`%s, lib/scalarsite_sse/%s:%d-%d -/'%(k['name'],'' if len(k['loops'])==1 else (' below the limit',' from the limit on')[n],k['file'],k['l0'],k['l1']))
            o.append('def %sK : Kern := {'%nm)
            o.append('  params := [%s]'%', '.join(k['roles'])); o.append('  nreg := %d'%k['nreg'])
            o.append('  mul := %d'%l['mul']); o.append('  sub := 0')
            o.append('  pre := %s'%lst(k['pre'])); o.append('  body := %s'%lst(l['body'])); o.append('  post := [] }'); o.append('')
        o.append('/-- `%s`, lib/scalarsite_sse/%s:%d-%d -/'%(k['name'],k['file'],k['l0'],k['l1']))
        if k['lim']: o.append('def %s : SKern := ⟨%sSmallK, %sBigK, %s⟩'%(k['name'],k['name'],k['name'],k['lim']))
        else: o.append('def %s : SKern := ⟨%sK, %sK, 0⟩'%(k['name'],k['name'],k['name']))
        o.append('')
    def call(c):
        k,a=c; K=kd[k]; assert len(a)==K['n']
        return '⟨%s, [%s]⟩'%(k,', '.join(a+([a[0]] if K['inplace'] else [])))
    es=[]
    for f,w in SETS: es.append(evaluates(f,w))
    names=[]
    for q,p,ee in(('s','Single',es[0]),('d','Double',es[1])):
        for k,e in enumerate(ee):
            (o1,l1),(o2,l2)=e['calls']; nm='%s%02d'%(q,k); names.append((q,nm))
            ul=[l for l in(l1,e['same'][1][1] if e['same'] else None,l2) if l]
            assert (l1 is None)==(l2 is None) and (l1 or not e['same'])
            o.append('/-- include/scalarsite_sse/%s%s -/'%(e['where'],'; user functions %s:%s'%(e['w'],', '.join('%d-%d'%l for l in ul)) if ul else ''))
            o.append('def %s : SEntry := {'%nm); assert not e['cplx']
            o.append('  op := .%s'%e['op']); o.append('  rhs := %s'%e['tree'])
            o.append('  ordered := %s'%call(o1))
            o.append('  same := %s'%('none' if not e['same'] else 'some (%s, %s)'%(e['same'][0],call(e['same'][1][0]))))
            o.append('  unordered := %s'%call(o2)); o.append('  threaded := %s }'%('true' if l1 else 'false')); o.append('')
    for q,t in(('s','singles'),('d','doubles')):
        o.append('/-- the specialisations for fields of numbers of type `REAL%s` -/'%('32' if q=='s' else '64'))
        o.append('def %s : List SEntry := [%s]'%(t,', '.join(n for z,n in names if z==q))); o.append('')
    o.append('end Verif.SseBlas.Tables')
    open(sys.argv[1],'w').write('\n'.join(o)+'\n')
    for k in ks: print(k['name'],k['roles'],k['nreg'],k['lim'],[(l['mul'],l['stride'],len(l['body'])) for l in k['loops']])
    for ee in es:
        for e in ee: print(e['where'],e['op'],e['tree'],e['calls'][0][0],e['calls'][1][0] if e['calls'][1][0]!=e['calls'][0][0] else '=',e['same'])
if __name__=='__main__': main()

#!/usr/bin/env python3
"""Reads the specialisations of `evaluate` that call the routines of the library Bagel as text and writes them as a Lean table: assignment
operator, expression, and for subsets with and without ordered representation the routine, its arguments and the factor of the count."""
import re,sys
D='/repo/include/scalarsite_bagel_qdp/'
FILES=['qdp_scalarsite_bagel_qdp_blas.h','qdp_scalarsite_bagel_qdp_blas_g5.h']
def blank(m): return re.sub(r'[^\n]','',m.group(0))
def load(f):
    s=open(D+f).read()
    s=re.sub(r'/\*.*?\*/',blank,s,flags=re.S); s=re.sub(r'//[^\n]*',blank,s)
    s=re.sub(r'#if 0.*?#endif',blank,s,flags=re.S)
    s=re.sub(r'#ifdef DEBUG_\w+.*?#endif',blank,s,flags=re.S)
    return s
def match(s,i,o,c):
    d=0
    while True:
        if s[i]==o: d+=1
        if s[i]==c:
            d-=1
            if d==0: return i
        i+=1
def splitargs(t):
    r=[];d=0;cur=''
    for ch in t:
        if ch in '<(': d+=1
        if ch in '>)': d-=1
        if ch==',' and d==0: r.append(cur.strip());cur=''
        else: cur+=ch
    r.append(cur.strip()); return r
OPS={'OpAdd':'add','OpSubtract':'sub','OpMultiply':'mul','OpGammaConstMultiply':'gmul'}
FNS={'OpIdentity':'id','FnChiralProjectPlus':'projPlus','FnChiralProjectMinus':'projMinus','FnTimesI':'timesI'}
def node(t):
    t=t.strip()
    m=re.match(r'^(\w+)\s*<(.*)>$',t,re.S)
    if not m: raise Exception('type '+t)
    a=splitargs(m.group(2)); n=m.group(1)
    if n=='Reference':
        q=re.match(r'^QDPType<\s*(\w+)\s*,\s*(OLattice|OScalar)\s*<\s*(\w+)\s*>\s*>$',a[0].strip())
        assert q and q.group(1)==q.group(3),a
        if q.group(2)=='OLattice': assert q.group(1)=='TVec'; return '.vec'
        assert q.group(1)=='TScal'; return '.scal'
    if n=='BinaryNode': return '(.bin .%s %s %s)'%(OPS[a[0]],node(a[1]),node(a[2]))
    if n=='UnaryNode': return '(.un .%s %s)'%(FNS[a[0]],node(a[1]))
    if n=='GammaConst': assert a==['Ns','Ns*Ns-1']; return '(.gamma 15)'
    raise Exception('type '+t)
def stmts(b):
    b=re.sub(r'\s*=\s*',' = ',re.sub(r'\s+',' ',b))
    return [x.strip() for x in re.split(r'[;]',b) if x.strip()]
def pth(p): return '['+', '.join(p)+']'
def evaluates(f):
    s=load(f); out=[]
    for m in re.finditer(r'void\s+evaluate\s*\(',s):
        pe=match(s,m.end()-1,'(',')'); ps=splitargs(s[m.end():pe])
        bo=s.index('{',pe); be=match(s,bo,'{','}'); body=s[bo+1:be]
        l0=s[:m.start()].count('\n')+1; l1=s[:be].count('\n')+1; where='%s:%d-%d'%(f,l0,l1)
        assert len(ps)==4,(where,ps)
        assert re.match(r'^OLattice<\s*TVec\s*>\s*&\s*d$',ps[0]) and re.match(r'^const Subset\s*&\s*s$',ps[3]),(where,ps)
        op=re.match(r'^const Op(\w+)\s*&\s*op$',ps[1]).group(1)
        q=re.match(r'^const QDPExpr\s*<(.*)>\s*&\s*rhs$',ps[2],re.S); qa=splitargs(q.group(1)); tree=node(qa[0])
        env={'d':('fld','.dest')}
        def path(e):
            e=e.replace(' ','')
            mm=re.match(r'^\(?rhs\.expression\(\)((?:\.\w+\(\))*)\)?$',e)
            base=[]
            if not mm: mm=re.match(r'^\(?(\w+)((?:\.\w+\(\))*)\)?$',e); base=env[mm.group(1)][1]; ch=mm.group(2)
            else: ch=mm.group(1)
            return base+[{'left':'.l','right':'.r','child':'.c'}[z] for z in re.findall(r'\.(\w+)\(\)',ch)]
        def fldv(v):
            assert v[0]=='fld'; return v[1] if isinstance(v[1],str) else '.at '+pth(v[1])
        def do(st,site):
            if re.match(r'^typedef .*$',st): return True
            q=re.match(r'^const (\w+)\s*(<[^&]*>)?\s*& ?(\w+) = static_cast ?<[^&]*& ?> ?\((.*)\)$',st)
            if q:
                env[q.group(3)]=({'OLattice':'fld','OScalar':'scal'}.get(q.group(1),'node'),path(q.group(4))); return True
            q=re.match(r'^REAL (\w+) = (-?) ?\(? ?(\w+)((?:\.elem\(\))+) ?\)?$',st)
            if q:
                v=env[q.group(3)]; assert v[0]=='scal' and q.group(4).count('elem')==4
                env[q.group(1)]=('num',('.neg ' if q.group(2) else '.sc ')+pth(v[1])); return True
            q=re.match(r'^REAL (\w+) = \(REAL\)1 ?/ ?\(?(\w+)((?:\.elem\(\))+)\)?$',st)
            if q:
                v=env[q.group(2)]; assert v[0]=='scal'; env[q.group(1)]=('num','.inv '+pth(v[1])); return True
            q=re.match(r'^REAL (\w+) = 1$',st)
            if q: env[q.group(1)]=('num','.one'); return True
            q=re.match(r'^REAL ?\* ?(\w+) = (?:\(REAL ?\*\))? ?&(\w+)$',st)
            if q: v=env[q.group(2)]; assert v[0]=='num'; env[q.group(1)]=('sc',v[1]); return True
            q=re.match(r'^REAL ?\* ?(\w+) = (?:\(REAL ?\*\))? ?\(?& ?\(?(\w+)\.elem\((s\.start\(\)|i)\)\.elem\(0\)\.elem\(0\)\.real\(\)\)?$',st)
            if q: assert q.group(3)==site,(where,st); env[q.group(1)]=('ptr',fldv(env[q.group(2)])); return True
            q=re.match(r'^REAL ?\* ?(\w+) = (?:\(REAL ?\*\))? ?& ?\(?(\w+)((?:\.elem\(\))+)\)?$',st)
            if q:
                v=env[q.group(2)]; assert v[0]=='scal' and q.group(3).count('elem')==4,(where,st); env[q.group(1)]=('sc','.sc '+pth(v[1])); return True
            q=re.match(r'^int (\w+) = \(? ?s\.end\(\) ?- ?s\.start\(\) ?\+ ?1 ?\)?(?: ?\* ?(\d+))?$',st)
            if q: env[q.group(1)]=('count',int(q.group(2) or 1)); return True
            q=re.match(r'^REAL ?\* ?(\w+) = (\w+)$',st)
            if q and q.group(2) in env: env[q.group(1)]=env[q.group(2)]; return True
            return False
        b=re.sub(r'\s+',' ',body)
        i=re.search(r'if ?\( ?s\.hasOrderedRep\(\) ?\) ?\{',b); e1=match(b,i.end()-1,'{','}')
        j=re.match(r'^ ?else ?\{',b[e1+1:]); e2=match(b,e1+1+j.end()-1,'{','}')
        assert not b[e2+1:].strip(),(where,b[e2+1:])
        for st in stmts(b[:i.start()]):
            if not do(st,None): raise Exception('%s: cannot read "%s"'%(where,st))
        save=dict(env); calls=[]
        for un,blk in((False,b[i.end():e1]),(True,b[e1+1+j.end():e2])):
            env.clear(); env.update(save); got=None
            if un:
                q=re.match(r'^ ?const int ?\* ?tab ?= ?s\.siteTable\(\)\.slice\(\); ?for ?\( ?int j ?= ?0 ?; ?j ?< ?s\.numSiteTable\(\) ?; ?j\+\+ ?\) ?\{ ?int i ?= ?tab\[j\] ?;',blk); assert q,(where,blk)
                assert blk.rstrip().endswith('}'); blk=blk[q.end():blk.rindex('}')]
            for st in stmts(blk):
                q=re.match(r'^qdp_(\w+) ?\((.*)\)$',st)
                if q:
                    av=[x.strip() for x in q.group(2).split(',')]; last=av[-1]
                    mul=int(last) if un else env[last][1]
                    assert un or env[last][0]=='count'
                    vals=[]
                    for x in av[:-1]:
                        if x[0]=='&': v=env[x[1:]]; assert v[0]=='num'; vals.append(v[1])
                        else: v=env[x]; assert v[0] in('ptr','sc'),(where,x,v); vals.append(v[1])
                    assert got is None; got=(q.group(1),vals,mul); continue
                if not do(st,'i' if un else 's.start()'): raise Exception('%s: cannot read "%s"'%(where,st))
            assert got; calls.append(got)
        out.append(dict(where=where,op=op[0].lower()+op[1:],tree=tree,calls=calls))
    return out
def main():
    es=[]
    for f in FILES: es+=evaluates(f)
    o=[]; names=[]
    for k,e in enumerate(es):
        nm='b%02d'%k; names.append(nm)
        o.append('/-- include/scalarsite_bagel_qdp/%s -/'%e['where'])
        o.append('def %s : Entry := {'%nm); o.append('  op := .%s'%e['op']); o.append('  rhs := %s'%e['tree'])
        for w,(k1,a1,m1) in zip(('ordered','unordered'),e['calls']):
            o.append('  %s := ⟨.%s, [%s], %d⟩%s'%(w,k1,', '.join(a1),m1,' }' if w=='unordered' else ''))
        o.append('')
    o.append('def entries : List Entry := [%s]'%', '.join(names))
    open(sys.argv[1],'w').write('\n'.join(o)+'\n')
    for e in es: print(e['where'].replace('qdp_scalarsite_bagel_qdp_',''),e['op'],e['tree'],e['calls'][0],e['calls'][1] if e['calls'][1]!=e['calls'][0] else '=')
main()

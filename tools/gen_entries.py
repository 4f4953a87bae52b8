#!/usr/bin/env python3
"""Reads the specialisations of `evaluate` for the vector kernels as text and writes them as a Lean table: assignment operator, expression,
and which operand is passed at which place of which kernel, for subsets with and without ordered representation."""
import re,sys
D='/repo/include/scalarsite_generic/'
SETS=[('qdp_scalarsite_generic_blas.h','qdp_scalarsite_generic_blas_wrapper.h'),
      ('qdp_scalarsite_generic_cblas.h','qdp_scalarsite_generic_cblas_wrapper.h'),
      ('qdp_scalarsite_generic_blas_g5.h','qdp_scalarsite_generic_blas_g5_wrapper.h')]
def blank(m): return re.sub(r'[^\n]','',m.group(0))
def load(f):
    s=open(D+f).read()
    s=re.sub(r'/\*.*?\*/',blank,s,flags=re.S); s=re.sub(r'//[^\n]*',blank,s)
    s=re.sub(r'#if 0.*?#endif',blank,s,flags=re.S)
    s=re.sub(r'#ifdef DEBUG_\w+.*?#endif',blank,s,flags=re.S)
    s=re.sub(r'#if defined\(QDP_SCALARSITE_DEBUG\).*?#endif',blank,s,flags=re.S)
    return s
def match(s,i,o,c):
    d=0
    while True:
        if s[i]==o: d+=1
        if s[i]==c:
            d-=1
            if d==0: return i
        i+=1
def splitargs(t):
    r=[];d=0;cur=''
    for ch in t:
        if ch in '<(': d+=1
        if ch in '>)': d-=1
        if ch==',' and d==0: r.append(cur.strip());cur=''
        else: cur+=ch
    r.append(cur.strip()); return r
OPS={'OpAdd':'add','OpSubtract':'sub','OpMultiply':'mul','OpGammaConstMultiply':'gmul'}
FNS={'OpIdentity':'id','FnChiralProjectPlus':'projPlus','FnChiralProjectMinus':'projMinus','FnTimesI':'timesI'}
def node(t):
    t=t.strip()
    m=re.match(r'^(\w+)\s*<(.*)>$',t,re.S)
    if not m: raise Exception('type '+t)
    a=splitargs(m.group(2))
    n=m.group(1)
    if n=='Reference':
        q=re.match(r'^QDPType<\s*(\w+)\s*,\s*(OLattice|OScalar)\s*<\s*(\w+)\s*>\s*>$',a[0].strip())
        assert q and q.group(1)==q.group(3),a
        if q.group(2)=='OLattice':
            assert q.group(1) in('TVec','CTVec'); return '.vec',None
        assert q.group(1) in('TScal','CScal'); return '.scal',q.group(1)=='CScal'
    if n=='BinaryNode':
        x,c1=node(a[1]); y,c2=node(a[2]); return '(.bin .%s %s %s)'%(OPS[a[0]],x,y),(c1 if c1 is not None else c2)
    if n=='UnaryNode':
        x,c=node(a[1]); return '(.un .%s %s)'%(FNS[a[0]],x),c
    if n=='GammaConst':
        assert a==['Ns','Ns*Ns-1']; return '(.gamma 15)',None
    raise Exception('type '+t)

def wrappers(s):
    W={}
    structs={}
    for m in re.finditer(r'struct\s+(\w+)\s*\{',s):
        e=match(s,m.end()-1,'{','}'); b=s[m.end():e]; nm=m.group(1)
        ct=re.search(r'\b%s\s*\('%nm,b)
        if ct:
            pe=match(b,ct.end()-1,'(',')'); ps=[re.sub(r'.*[ &*]','',re.sub(r'\s+',' ',p).strip()) if '(*' not in p else re.search(r'\(\*(\w+)\)',p).group(1) for p in splitargs(b[ct.end():pe])]
            ini=b[pe+1:b.index('{',pe)]
            mp=dict((y,x) for x,y in re.findall(r'(\w+)\((\w+)\)',ini))
            structs[nm]=[mp[p] for p in ps]
        else:
            structs[nm]=[]
            for st in b.split(';'):
                st=st.strip()
                if not st: continue
                q=re.search(r'\(\*(\w+)\)',st)
                structs[nm].append(q.group(1) if q else re.search(r'(\w+)$',st).group(1))
    for m in re.finditer(r'void\s+(\w+)\s*\(int lo, int hi, int myId,\s*(\w+)\s*\*\s*a\)\s*\{',s):
        e=match(s,m.end()-1,'{','}'); W[m.group(1)]=(m.group(2),structs[m.group(2)],s[m.end():e],s[:m.start()].count('\n')+1,s[:e].count('\n')+1)
    return W

def stmts(b):
    b=re.sub(r'\s*=\s*',' = ',re.sub(r'\s+',' ',b))
    return [x.strip() for x in re.split(r'[;]',b) if x.strip()]

def calluser(W,func,args,unordered):
    """args: list of values for the struct's fields; returns kernel name and values at its parameters"""
    ty,fields,b,l0,l1=W[func]
    assert len(fields)==len(args),(func,fields,args)
    env={}; F=dict(zip(fields,args))
    b=re.sub(r'\s+',' ',b)
    # a branch on a constant
    q=re.search(r'if \((\w+)\)\s*\{(.*?)\}\s*\}\s*else \{(.*)\}\s*$',b) 
    if q:
        pre=b[:q.start()]; 
        c=F[q.group(1)]; assert c in(('int',0),('int',1)),c
        b=pre+(q.group(2)+'}' if c[1] else q.group(3))
    if unordered:
        q=re.search(r'for\s*\(\s*int j\s*=\s*lo;\s*j\s*<\s*hi;\s*j\+\+\s*\)\s*\{',b); assert q,(func,b)
        head=b[:q.start()]; e=match(b,q.end()-1,'{','}'); loop=b[q.end():e]; assert not b[e+1:].strip(' }'),(func,b[e+1:])
        ss=[('h',x) for x in stmts(head)]+[('l',x) for x in stmts(loop)]
    else: ss=[('h',x) for x in stmts(b)]
    res=None; site=None; n=None; index=set(); alln=None
    for where,st in ss:
        q=re.match(r'^void \(\*(\w+)\)\s*\([^)]*\)\s*=\s*a->(\w+)$',st)
        if q: env[q.group(1)]=F[q.group(2)]; continue
        q=re.match(r'^(?:const )?(?:OLattice< ?C?TVec ?> ?& ?|REAL ?\* ?|const int ?\* ?|int )(\w+)\s*=\s*a->(\w+)$',st)
        if q: env[q.group(1)]=F[q.group(2)]; continue
        q=re.match(r'^int (\w+) = hi - lo$',st)
        if q: env[q.group(1)]=('n',); continue
        if st=='int index = lo * 24': continue
        q=re.match(r'^(\w+) = &(\w+)\[index\]$',st)
        if q:
            assert q.group(1)==q.group(2) and env[q.group(1)][0]=='fld',(func,st,env); index.add(q.group(1)); continue
        if re.match(r'^int i\s*=\s*tab\[j\]$',st):
            assert env['tab']==('tab',); site='i'; continue
        q=re.match(r'^REAL ?\* ?(\w+) = (?:\(REAL ?\*\))? ?&\((\w+)\.elem\(i\)\.elem\(0\)\.elem\(0\)\.real\(\)\)$',st)
        if q: assert site; env[q.group(1)]=('ptr',)+env[q.group(2)][1:]; continue
        q=re.match(r'^(\w+)\s*\(([^()]*)\)$',st)
        if q:
            k=q.group(1)
            if k in env: assert env[k][0]=='fun'; k=env[k][1]
            av=[x.strip() for x in q.group(2).split(',')]
            last=av[-1]
            if unordered: assert last=='1' or env.get(last)==('int',1),(func,last,env.get(last))
            else: assert env[last]==('n',),(func,last)
            vals=[]
            for x in av[:-1]:
                v=env[x]
                if v[0]=='fld':
                    assert not unordered and x in index,(func,x); vals.append(v[1])
                elif v[0]=='ptr': vals.append(v[1])
                elif v[0]=='sc': vals.append(v[1])
                else: raise Exception((func,x,v))
            assert res is None; res=(k,vals); continue
        raise Exception('%s: cannot read "%s"'%(func,st))
    return res,(l0,l1)

def evaluates(f,w):
    s=load(f); W=wrappers(load(w)); out=[]
    for m in re.finditer(r'void\s+evaluate\s*\(',s):
        pe=match(s,m.end()-1,'(',')'); ps=splitargs(s[m.end():pe]); 
        bo=s.index('{',pe); be=match(s,bo,'{','}'); body=s[bo+1:be]
        l0=s[:m.start()].count('\n')+1; l1=s[:be].count('\n')+1
        where='%s:%d-%d'%(f,l0,l1)
        assert len(ps)==4,(where,ps)
        assert re.match(r'^OLattice<\s*C?TVec\s*>\s*&\s*d$',ps[0]) and re.match(r'^const Subset\s*&\s*s$',ps[3]),(where,ps)
        op=re.match(r'^const Op(\w+)\s*&\s*op$',ps[1]).group(1)
        q=re.match(r'^const QDPExpr\s*<(.*)>\s*&\s*rhs$',ps[2],re.S); qa=splitargs(q.group(1)); tree,cp=node(qa[0])
        env={'d':('fld','.dest')}
        def path(e):
            e=e.replace(' ','')
            mm=re.match(r'^\(?rhs\.expression\(\)((?:\.\w+\(\))*)\)?$',e)
            base=[]
            if not mm:
                mm=re.match(r'^\(?(\w+)((?:\.\w+\(\))*)\)?$',e); base=env[mm.group(1)][1]; ch=mm.group(2)
            else: ch=mm.group(1)
            return base+[{'left':'.l','right':'.r','child':'.c'}[z] for z in re.findall(r'\.(\w+)\(\)',ch)]
        def do(st):
            st=st.strip()
            q=re.match(r'^typedef .*$',st)
            if q: return True
            q=re.match(r'^const (O?\w+)\s*(<[^&]*>)?\s*& ?(\w+) = static_cast ?<[^&]*& ?> ?\((.*)\)$',st)
            if q:
                ty=q.group(1); p=path(q.group(4))
                env[q.group(3)]=({'OLattice':'fld','OScalar':'scal'}.get(ty,'node'),p) ; return True
            q=re.match(r'^REAL (\w+) = (-?) ?\(? ?(\w+)((?:\.elem\(\))+) ?\)?$',st)
            if q:
                v=env[q.group(3)]; assert v[0]=='scal' and q.group(4).count('elem')==4
                env[q.group(1)]=('num',('.neg ' if q.group(2) else '.sc ')+pth(v[1])); return True
            q=re.match(r'^REAL (\w+) = (?:\(REAL\))?(?:1|One|\(REAL\)1)(?:\.0)? ?/ ?\(?(\w+)((?:\.elem\(\))+)\)?$',st)
            if q:
                v=env[q.group(2)]; assert v[0]=='scal'
                env[q.group(1)]=('num','.inv '+pth(v[1])); return True
            q=re.match(r'^REAL (\w+) = (?:\(REAL\))?\(?1(?:\.0)?\)?$',st)
            if q: env[q.group(1)]=('num','.one'); return True
            q=re.match(r'^REAL ?\* ?(\w+) = (?:\(REAL ?\*\))? ?&(\w+)$',st)
            if q: v=env[q.group(2)]; assert v[0]=='num'; env[q.group(1)]=('sc',v[1]); return True
            q=re.match(r'^REAL ?\* ?(\w+) = (?:\(REAL ?\*\))? ?\(?& ?\(?(\w+)\.elem\(s\.start\(\)\)\.elem\(0\)\.elem\(0\)\.real\(\)\)?$',st)
            if q: env[q.group(1)]=('fld',fldv(env[q.group(2)])); return True
            q=re.match(r'^REAL ?\* ?(\w+) = (?:\(REAL ?\*\))? ?& ?\(?(\w+)((?:\.elem\(\))+)(\.real\(\))?\)?$',st)
            if q:
                v=env[q.group(2)]; assert v[0] in('scal','nscal'),(where,st,v); assert (q.group(4) is not None)==bool(cp) and q.group(3).count('elem')==(3 if cp else 4),(where,st)
                env[q.group(1)]=('sc',('.sc ' if v[0]=='scal' else '.neg ')+pth(v[1])); return True
            q=re.match(r'^(?:OScalar<\s*C?T?Scal\s*>|\w+) (\w+) = ?- ?(\w+)$',st)
            if q and env.get(q.group(2),('',))[0]=='scal': env[q.group(1)]=('nscal',env[q.group(2)][1]); return True
            q=re.match(r'^int (\w+) = \(? ?s\.end\(\) ?- ?s\.start\(\) ?\+ ?1 ?\)?$',st)
            if q: env[q.group(1)]=('total',); return True
            if re.match(r'^const int ?\* ?tab = s\.siteTable\(\)\.slice\(\)$',st): env['tab']=('tab',); return True
            q=re.match(r'^int (\w+) = s\.numSiteTable\(\)$',st)
            if q: env[q.group(1)]=('size',); return True
            q=re.match(r'^REAL ?\* ?(\w+) = (\w+)$',st)
            if q and q.group(2) in env: env[q.group(1)]=env[q.group(2)]; return True
            q=re.match(r'^int (\w+) = (\d+)$',st)
            if q: env[q.group(1)]=('int',int(q.group(2))); return True
            return False
        def pth(p): return '['+', '.join(p)+']'
        def fldv(v):
            assert v[0]=='fld'; return v[1] if isinstance(v[1],str) else '.at '+pth(v[1])
        b=re.sub(r'\s+',' ',body)
        i=re.search(r'if ?\( ?s\.hasOrderedRep\(\) ?\) ?\{',b); e1=match(b,i.end()-1,'{','}')
        j=re.match(r'^ ?else ?\{',b[e1+1:]); e2=match(b,e1+1+j.end()-1,'{','}')
        assert not b[e2+1:].strip(),(where,b[e2+1:])
        for st in stmts(b[:i.start()]):
            if not do(st): raise Exception('%s: cannot read "%s"'%(where,st))
        save=dict(env); calls=[]
        for un,blk in((False,b[i.end():e1]),(True,b[e1+1+j.end():e2])):
            env.clear(); env.update(save); args=None; got=None
            for st in stmts(blk):
                q=re.match(r'^(\w+_user_arg) (\w+) = \{(.*)\}$',st) or re.match(r'^(\w+_user_arg) (\w+) ?\((.*)\)$',st)
                if q: args=(q.group(1),q.group(2),[x.strip() for x in q.group(3).split(',') if x.strip()]); continue
                q=re.match(r'^dispatch_to_threads ?\((\w+), (\w+), (\w+)\)$',st)
                if q:
                    assert env[q.group(1)]==(('size',) if un else ('total',)) and args[1]==q.group(2) and W[q.group(3)][0]==args[0],(where,st)
                    vals=[]
                    for x in args[2]:
                        if x.isdigit(): vals.append(('int',int(x)))
                        elif x[0]=='&':
                            v=env[x[1:]]; assert v[0]=='num',(where,x,v); vals.append(('sc',v[1]))
                        elif x in env:
                            v=env[x]
                            if v[0]=='fld': vals.append(('fld',fldv(v)))
                            else: vals.append(v)
                        else:
                            assert re.match(r'^\w+$',x),(where,x); vals.append(('fun',x))
                    got=calluser(W,q.group(3),vals,un); continue
                if not do(st): raise Exception('%s: cannot read "%s"'%(where,st))
            assert got; calls.append(got)
        out.append(dict(where=where,op=op[0].lower()+op[1:],tree=tree,cplx=bool(cp),calls=calls,w=w))
    return out
def main():
    es=[]
    for f,w in SETS: es+=evaluates(f,w)
    o=['import Verif.Blas','import Verif.KernelTables','/-','The specialisations of `evaluate` for the vector kernels, written by tools/gen_entries.py from the text of the headers.','-/',
       'namespace Verif.Blas.Tables','open Verif.Kernel Verif.Kernel.Tables Verif.Blas','']
    names=[]
    for k,e in enumerate(es):
        (o1,l1),(o2,l2)=e['calls']
        nm='e%02d'%k; names.append(nm)
        o.append('/-- include/scalarsite_generic/%s; user functions %s:%d-%d, %d-%d -/'%(e['where'],e['w'],l1[0],l1[1],l2[0],l2[1]))
        o.append('def %s : Entry := {'%nm)
        o.append('  op := .%s'%e['op']); o.append('  rhs := %s'%e['tree']); o.append('  cplx := %s'%str(e['cplx']).lower())
        o.append('  ordered := ⟨%s, [%s]⟩'%(o1[0],', '.join(o1[1]))); o.append('  unordered := ⟨%s, [%s]⟩ }'%(o2[0],', '.join(o2[1]))); o.append('')
    o.append('def entries : List Entry := [%s]'%', '.join(names)); o.append(''); o.append('end Verif.Blas.Tables')
    open(sys.argv[1],'w').write('\n'.join(o)+'\n')
    for e in es: print(e['where'],e['op'],e['tree'],e['cplx'],e['calls'][0][0],e['calls'][1][0] if e['calls'][1][0]!=e['calls'][0][0] else '=')
main()

"""Writes lean/Verif/SpinTables.lean: the hand-written spin tables of QDP++, transcribed from the headers.

Every function body is matched as a whole against the one pattern its family follows; a body that deviates stops the script, so the
loops around the tables, which are modelled once in Spin.lean, are those of every function."""
import re, sys
REPO='/repo/include/'
OUT=sys.argv[1] if len(sys.argv)>1 else '/verif/lean/Verif/SpinTables.lean'
def load(f):
    return open(REPO+f).read().split('\n')
def strip(s):
    s=re.sub(r'/\*.*?\*/','',s,flags=re.S)
    s=re.sub(r'//[^\n]*','',s)
    return re.sub(r'\s+','',s)
def body(lines,start):
    """text of the braces block that begins after line index start; (first,last) 1-based lines"""
    i=start
    while '{' not in lines[i]: i+=1
    depth=0; j=i; started=False; buf=[]
    incom=False
    while True:
        l=lines[j]
        k=re.sub(r'//.*','',l)
        # block comments contain braces: drop them for counting
        t=''; p=0
        while p<len(k):
            if incom:
                q=k.find('*/',p)
                if q<0: p=len(k)
                else: p=q+2; incom=False
            else:
                q=k.find('/*',p)
                if q<0: t+=k[p:]; p=len(k)
                else: t+=k[p:q]; p=q+2; incom=True
        depth+=t.count('{')-t.count('}')
        buf.append(l)
        if '{' in t: started=True
        if started and depth==0: break
        j+=1
    return '\n'.join(buf), j+1
PH={'':'one','-':'neg','timesI':'i','timesMinusI':'ni'}
def rhs(s,var,tail):
    """-x.elem(k..) | timesI(x.elem(k..)) | x.elem(k..)"""
    m=re.fullmatch(r'(-?)%s\.elem\(%s\)'%(var,tail),s)
    if m: return PH[m.group(1)],int(m.group(2))
    m=re.fullmatch(r'(timesI|timesMinusI)\(%s\.elem\(%s\)\)'%(var,tail),s)
    if m: return PH[m.group(1)],int(m.group(2))
    raise SystemExit('unexpected right-hand side '+s)
def gamma(file,typ,obj,side,var):
    """typ GammaConst/GammaConstDP; obj PSpinVector/PSpinMatrix; side L/R"""
    L=load(file); res={}
    for i,l in enumerate(L):
        if side=='L': m=re.match(r'operator\*\(const %s<4,(\d+)>&, const %s<T2,4>& %s\)\s*$'%(typ,obj,var),l)
        else: m=re.match(r'operator\*\(const %s<T2,4>& %s, const %s<4,(\d+)>&\)\s*$'%(obj,var,typ),l)
        if not m: continue
        n=int(m.group(1)); b,last=body(L,i+1)
        s=strip(b)
        m=re.fullmatch(r'\{typenameBinaryReturn<[^;]*::Type_td;(.*)returnd;\}',s)
        assert m,(file,i,s)
        s=m.group(1)
        if obj=='PSpinMatrix':
            m=re.fullmatch(r'for\(inti=0;i<4;\+\+i\)\{(.*)\}',s)
            assert m,(file,i,s)
            s=m.group(1)
        st=[x for x in s.split(';') if x]
        assert len(st)==4
        row={}
        for x in st:
            lhs,r=x.split('=')
            if obj=='PSpinVector': ml=re.fullmatch(r'd\.elem\((\d)\)',lhs); tail=r'(\d)'
            elif side=='L': ml=re.fullmatch(r'd\.elem\((\d),i\)',lhs); tail=r'(\d),i'
            else: ml=re.fullmatch(r'd\.elem\(i,(\d)\)',lhs); tail=r'i,(\d)'
            assert ml,(file,i,x)
            a=int(ml.group(1)); assert a not in row
            row[a]=rhs(r,var,tail)
        assert n not in res
        res[n]=([row[a] for a in range(4)],i,last)
    assert sorted(res)==list(range(16)),(file,typ,obj,side,sorted(res))
    return res
def fmt_rows(rows): return '!['+', '.join('(.%s, %d)'%r for r in rows)+']'
o=[]
o.append('''import Verif.Basic
import Mathlib.Data.Fin.VecNotation
/-
Spin tables of QDP++, transcribed by tools/gen_spin.py from the headers cited.  An entry `(ph, k)` in place `a` of a table stands for the
assignment `d.elem(a) = ph * r.elem(k)`.
-/
namespace Verif.Spin

/-- the four forms of a right-hand side: `x`, `-x`, `timesI(x)`, `timesMinusI(x)` -/
inductive Ph | one | neg | i | ni
deriving DecidableEq, Repr

/-- one assignment: form and spin index of the operand -/
abbrev Ent := Ph × Fin 4
abbrev EntH := Ph × Fin 2
''')
def emit_gamma(name,doc,file,res):
    first=min(r[1] for r in res.values()); last=max(r[2] for r in res.values())
    o.append('/-- %s, include/%s:%d-%d -/\ndef %s : Fin 16 → Fin 4 → Ent := !['%(doc,file,first,last,name))
    for n in range(16):
        rows,a,b=res[n]
        o.append('  %s%s  -- %d: lines %d-%d'%(fmt_rows(rows),',' if n<15 else ']',n,a+1,b))
    o.append('')
V='qdp_primspinvec.h'; M='qdp_primspinmat.h'
emit_gamma('vecL','`GammaConst<4,n> * PSpinVector`',V,gamma(V,'GammaConst','PSpinVector','L','r'))
emit_gamma('matL','`GammaConst<4,n> * PSpinMatrix`',M,gamma(M,'GammaConst','PSpinMatrix','L','r'))
emit_gamma('matR','`PSpinMatrix * GammaConst<4,n>`; here place `a` stands for `d.elem(i,a)`',M,gamma(M,'GammaConst','PSpinMatrix','R','l'))
emit_gamma('vecDPL','`GammaConstDP<4,n> * PSpinVector`',V,gamma(V,'GammaConstDP','PSpinVector','L','r'))
emit_gamma('matDPL','`GammaConstDP<4,n> * PSpinMatrix`',M,gamma(M,'GammaConstDP','PSpinMatrix','L','r'))
emit_gamma('matDPR','`PSpinMatrix * GammaConstDP<4,n>`; here place `a` stands for `d.elem(i,a)`',M,gamma(M,'GammaConstDP','PSpinMatrix','R','l'))
# dispatch tables
L=load('qdp_primgamma.h')
txt='\n'.join(L)
def disp(name,doc,op,wrapper,tail):
    i=next(k for k,l in enumerate(L) if op in l)
    b,last=body(L,i)
    s=strip(b)
    m=re.search(r's\[\]=\{(.*?)\};return s?',b.replace('\n',''))
    m=re.fullmatch(r'\{typedefT\(\*Ptrfunc\)\(constT&\);Ptrfuncs\[\]=\{(.*?)\};returns\[(a|b)\.elem\(\)\]\((a|b)\);\}',s)
    assert m,s
    idx=[]
    for x in m.group(1).split(','):
        if x.endswith('N>'): continue
        mm=re.fullmatch(r'&'+wrapper%r'(\d+)'+r'<T',x); assert mm,x
        idx.append(int(mm.group(1)))
    # the wrapper n multiplies by constant n
    for n in range(16):
        w=wrapper%str(n)
        ml=[l for l in L if re.search(r'inline T %s\('%w,l)]
        assert len(ml)==1 and re.search(tail.replace('#',str(n)),ml[0]),(w,ml)
    o.append('/-- %s, include/qdp_primgamma.h:%d-%d: the constants behind the function pointers -/\ndef %s : List Nat := %s\n'%(doc,i+1,last,name,idx))
disp('dispL','`OpGammaTypeMultiply`','OpGammaTypeMultiply:: operator()','Multiply_gamma%s_arg',r'\(GammaConst<N,#>\(\) \* s1\)')
disp('dispR','`OpMultiplyGammaType`','OpMultiplyGammaType::operator()','Multiply_arg_gamma%s',r'\(s1 \* GammaConst<N,#>\(\)\)')
disp('dispDPL','`OpGammaTypeDPMultiply`','OpGammaTypeDPMultiply:: operator()','Multiply_gamma%s_DP_arg',r'\(GammaConstDP<N,#>\(\) \* s1\)')
disp('dispDPR','`OpMultiplyGammaTypeDP`','OpMultiplyGammaTypeDP::operator()','Multiply_DP_arg_gamma%s',r'\(s1 \* GammaConstDP<N,#>\(\)\)')
# projection / reconstruction
L=load(V)
names=['%d%s'%(d,s) for d in range(4) for s in ('Plus','Minus')]
def fn(L,pat):
    i=[k for k,l in enumerate(L) if re.match(pat,l)]
    assert len(i)==1,(pat,i)
    b,last=body(L,i[0]+(0 if '{' in L[i[0]] else 1))
    return i[0]+1,last,strip(re.sub(r'#ifdef.*?#endif','',b,flags=re.S))
proj={};recon={}
for nm in names:
    a,b,s=fn(L,r'spinProjectDir%s\('%nm)
    m=re.fullmatch(r'\{typename[^;]*;d\.elem\(0\)=s1\.elem\(0\)([+-])(.*?);d\.elem\(1\)=s1\.elem\(1\)([+-])(.*?);returnd;\}',s)
    assert m,s
    def term(sg,t):
        ph,k=rhs(t,'s1',r'(\d)')
        if sg=='-': ph={'one':'neg','i':'ni'}[ph]
        else: assert ph in('one','i')
        return ph,k
    proj[nm]=([term(m.group(1),m.group(2)),term(m.group(3),m.group(4))],a,b)
    a,b,s=fn(L,r'spinReconstructDir%s\('%nm)
    m=re.fullmatch(r'\{typename[^;]*;d\.elem\(0\)=(.*?);d\.elem\(1\)=(.*?);d\.elem\(2\)=(.*?);d\.elem\(3\)=(.*?);returnd;\}',s)
    assert m,s
    recon[nm]=([rhs(m.group(k),'s1',r'(\d)') for k in range(1,5)],a,b)
def emit_dir(name,doc,file,res,ty):
    o.append('/-- %s, include/%s:%d-%d; directions 0 to 3, plus before minus -/\ndef %s : Fin 8 → %s := !['%(doc,file,min(r[1] for r in res.values()),max(r[2] for r in res.values()),name,ty))
    for k,nm in enumerate(names):
        rows,a,b=res[nm]
        o.append('  %s%s  -- %s: lines %d-%d'%(fmt_rows(rows),',' if k<7 else ']',nm,a,b))
    o.append('')
emit_dir('projT','`spinProjectDir`: an entry `(ph, k)` in place `a` stands for `d.elem(a) = s1.elem(a) + ph * s1.elem(k)`',V,proj,'Fin 2 → Ent')
emit_dir('reconT','`spinReconstructDir`',V,recon,'Fin 4 → EntH')
# inlines
PI='scalarsite_generic/generic_spin_proj_inlines.h'; RI='scalarsite_generic/generic_spin_recon_inlines.h'
LP=load(PI); LR=load(RI)
pre=r'\{REALtmp_(?:h?)spinor\[4\]\[3\]\[2\];constREAL\*src_shadow=src;REAL\*dst_shadow=dst;constintre=0;constintim=1;constintNcmpx=2;'
C={'re':'false','im':'true'}
def loop2(store): return r'for\(intcol=0;col<Nc;col\+\+\)\{%s%s\}'%(store,store)
ip={}
for nm in names:
    a,b,s=fn(LP,r'void inlineSpinProjDir%s\('%nm)
    st=r'\*\(dst_shadow\+\+\)=tmp_spinor\[(\d)\]\[col\]\[(re|im)\]([+-])tmp_spinor\[(\d)\]\[col\]\[(re|im)\];'
    m=re.fullmatch(pre+r'for\(unsignedintsite=0;site<n_vec;site\+\+\)\{REAL\*(\w+)=&\(tmp_spinor\[0\]\[0\]\[0\]\);for\(intstream=0;stream<Ns\*Nc\*Ncmpx;stream\+\+\)\{\*\((\w+)\+\+\)=\*\(src_shadow\+\+\);\}'+loop2(st)+loop2(st)+r'\}\}',s)
    assert m,(nm,s)
    g=m.groups(); assert g[0]==g[1]
    g=g[2:]
    ip[nm]=([g[5*k:5*k+5] for k in range(4)],a,b)
o.append('/-- a store of the inlined functions: `± tmp[k][col][c]`; `c` is true for the imaginary part -/\nstructure Src where\n  minus : Bool\n  k : Nat\n  c : Bool\nderiving DecidableEq\n')
def src(sg,k,c): return '⟨%s, %s, %s⟩'%('true' if sg=='-' else 'false',k,C[c])
o.append('/-- `inlineSpinProjDir`, include/%s:%d-%d: the two terms of the four stores (spin 0 real, spin 0 imaginary, spin 1 real, spin 1 imaginary) -/\ndef inProjT : Fin 8 → Fin 4 → Src × Src := !['%(PI,min(r[1] for r in ip.values()),max(r[2] for r in ip.values())))
for k,nm in enumerate(names):
    g,a,b=ip[nm]
    o.append('  ![%s]%s  -- %s: lines %d-%d'%(', '.join('(%s, %s)'%(src('+',x[0],x[1]),src(x[2],x[3],x[4])) for x in g),',' if k<7 else ']',nm,a,b))
o.append('')
for nameL,fnm,add in (('inReconT','inlineSpinRecon',False),('inAddReconT','inlineAddSpinRecon',True)):
    ir={}
    for nm in names:
        a,b,s=fn(LR,r'void %sDir%s\('%(fnm,nm))
        if not add:
            st=r'\*\(dst_shadow\+\+\)=(-?)tmp_hspinor\[(\d)\]\[col\]\[(re|im)\];'
        else:
            st=r'\*\(dst_shadow\+\+\)(\+|-)=tmp_hspinor\[(\d)\]\[col\]\[(re|im)\];'
        m=re.fullmatch(pre+r'constintNsby2=2;for\(unsignedintsite=0;site<n_vec;site\+\+\)\{REAL\*tmp_shadow=&\(tmp_hspinor\[0\]\[0\]\[0\]\);for\(intstream=0;stream<Nsby2\*Nc\*Ncmpx;stream\+\+\)\{REALtmp=\*\(src_shadow\+\+\);\*\(tmp_shadow\+\+\)=tmp;\*\(dst_shadow\+\+\)%s=tmp;\}'%(r'\+' if add else '')+loop2(st)+loop2(st)+r'\}\}',s)
        assert m,(fnm,nm,s)
        g=m.groups()
        ir[nm]=([g[3*k:3*k+3] for k in range(4)],a,b)
    o.append('/-- `%sDir`, include/%s:%d-%d: the stores to spin 2 (real, imaginary) and spin 3 -/\ndef %s : Fin 8 → Fin 4 → Src := !['%(fnm,RI,min(r[1] for r in ir.values()),max(r[2] for r in ir.values()),nameL))
    for k,nm in enumerate(names):
        g,a,b=ir[nm]
        o.append('  ![%s]%s  -- %s: lines %d-%d'%(', '.join(src(*x) for x in g),',' if k<7 else ']',nm,a,b))
    o.append('')
o.append('end Verif.Spin')
open(OUT,'w').write('\n'.join(o)+'\n')

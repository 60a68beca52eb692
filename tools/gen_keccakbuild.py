#!/usr/bin/env python3
"""Writes lean/Verif/Gen/KeccakCVariants.lean: the round and copy macros of /repo/keccak in every build setting (KeccakF-1600-64.macros.h with and
without UseBebigokimisa, KeccakF-1600-simd64.macros.h, KeccakF-1600-simd128.macros.h) and the unrollings of KeccakF-1600-unrolling.macros.h."""
import re
D='/repo/keccak/'
F={k:open(D+f).read().split('\n') for k,f in dict(w='KeccakF-1600-64.macros.h',s='KeccakF-1600-simd64.macros.h',t='KeccakF-1600-simd128.macros.h',u='KeccakF-1600-unrolling.macros.h').items()}
NAME=dict(w='KeccakF-1600-64.macros.h',s='KeccakF-1600-simd64.macros.h',t='KeccakF-1600-simd128.macros.h')
lanes=[a+b for a in 'bgkms' for b in 'aeiou']
lanes128='bage begi bi bo bu ga go gu kame kemi ki ko ku ma mo mu sa se si so su'.split()
def find(f,s,k=0):
    return [i+1 for i,l in enumerate(F[f]) if l.startswith('#define '+s)][k]
def body(f,start):
    out=[];i=start;L=F[f]
    while L[i-1].rstrip().endswith('\\'):
        out.append((i+1,L[i].rstrip().rstrip('\\').strip())); i+=1
    return [(n,t) for n,t in out if t]
# ---- expressions -------------------------------------------------------------------------------------------------
TOK=re.compile(r'\s*([A-Za-z_]\w*|\d+|[~^&|(),.\[\]])')
def tokens(s):
    out=[];i=0
    while i<len(s):
        m=TOK.match(s,i); assert m,(s,i); out.append(m.group(1)); i=m.end()
    return out
class Parser:
    def __init__(self,s,mode): self.t=tokens(s.strip()); self.i=0; self.mode=mode; self.vars=set()
    def peek(self): return self.t[self.i] if self.i<len(self.t) else None
    def eat(self,x=None):
        v=self.t[self.i]; self.i+=1; assert x is None or v==x,(v,x,self.t); return v
    def expr(self):   # C: & binds tighter than ^, ^ tighter than |
        a=self.xor()
        while self.peek()=='|': self.eat(); a='(%s ||| %s)'%(a,self.xor())
        return a
    def xor(self):
        a=self.and_()
        while self.peek()=='^': self.eat(); a='(%s ^^^ %s)'%(a,self.and_())
        return a
    def and_(self):
        a=self.atom()
        while self.peek()=='&': self.eat(); a='(%s &&& %s)'%(a,self.atom())
        return a
    def atom(self):
        x=self.eat()
        if x=='~': return '(~~~ %s)'%self.atom()
        if x=='(':
            a=self.expr(); self.eat(')'); return a
        if self.peek()=='(':
            self.eat(); args=[]
            if self.peek()!=')':
                args.append(self.expr())
                while self.peek()==',': self.eat(); args.append(self.expr())
            self.eat(')'); return self.call(x,args)
        if x.isdigit(): return x
        if self.peek()=='[':
            self.eat(); k=self.expr(); self.eat(']')
            if x=='KeccakF1600RoundConstants': self.vars.discard('i'); return 'rc'
            assert x in('state','input'); return '(word %s %s)'%(x,k)
        if self.peek()=='.':
            self.eat(); f=self.eat(); self.vars.add(x)
            if f=='v128': return x
            assert f=='v64'; self.eat('['); k=self.eat(); self.eat(']'); return '%s.%s'%(x,['lo','hi'][int(k)])
        self.vars.add(x); return x
    def call(self,f,a):
        if self.mode=='w':
            assert f=='ROL64'; return '(ROL64 %s %s)'%tuple(a)
        if self.mode=='s':
            return {'XOR64':'(%s ^^^ %s)','ANDnu64':'((~~~ %s) &&& %s)','ROL64':'(rol64 %s %s)','LOAD64':'%s','CONST64':'%s'}[f]%tuple(a)
        if f in('LOAD128','LOAD128u'):
            m=re.match(r'\(word (\w+) (\d+)\)$',a[0]); return '(load128 %s %s)'%m.groups()
        return {'XOR64':'(xor128 %s %s)','XOR128':'(xor128 %s %s)','ANDnu64':'(andnot128 %s %s)','ANDnu128':'(andnot128 %s %s)','ROL64':'(rol128 %s %s)','ROL64in128':'(rol128 %s %s)',
            'LOAD64':'(load64 %s)','CONST64':'(load64 %s)','GET64LO':'(getLo %s %s)','GET64HI':'(getHi %s %s)','COPY64HI2LO':'(hiToLo %s)','ZERO128':'zero128'}[f]%tuple(a)
def pexpr(s,mode):
    p=Parser(s.replace('##',''),mode); e=p.expr(); assert p.i==len(p.t),s; return e,p.vars
def stmts(b,mode):
    """(line, variable, expression, variables read)"""
    out=[]
    for n,t in b:
        for s in t.split(';'):
            s=s.strip().replace('##','')
            if not s: continue
            if s=='computeD':
                out+=stmts(body('t',find('t','computeD')),mode); continue
            m=re.match(r'^XOReq(?:64|128)\(([\w.]+), (.*)\)$',s)
            if m:
                v=m.group(1).replace('.v128',''); e,r=pexpr('XOR64(%s, %s)'%(m.group(1),m.group(2)),mode); out.append((n,v,e,r)); continue
            m=re.match(r'^([\w.]+)\s*(\^?=)\s*(.*)$',s); assert m,s
            v=m.group(1).replace('.v128','')
            rhs=m.group(3) if m.group(2)=='=' else v+'^('+m.group(3)+')'
            e,r=pexpr(rhs,mode); out.append((n,v,e,r))
    return out
def strip(e):
    return e[1:-1] if e.startswith('(') and match(e) else e
def match(e):
    d=0
    for i,c in enumerate(e):
        d+=c=='('; d-=c==')'
        if d==0: return i==len(e)-1
o=[];P=o.append
P('''import Verif.Model.KeccakCPerm

/-!
# The Keccak-f[1600] macros of /repo/keccak in every build setting

Written by tools/gen_keccakbuild.py, one `let` per C assignment; a C variable that is assigned twice is shadowed. A round macro is called with (A, E) or (E, A); it
returns its second argument as it leaves it, its third argument and the column sums. The generator checks that nothing else is read before it is written.
-/

namespace Verif.Model.KeccakC
open Verif

/-- `ROL64` of the MMX build, KeccakF-1600-opt64.c:77 (lane by lane also that of the SSE build, line 34). -/
def rol64 (a : U64) (o : Nat) : U64 := (a <<< o) ||| (a >>> (64 - o))

/-- `__m128i` and `V6464`, KeccakF-1600-opt64.c:24-29: `lo` is `v64[0]`. -/
structure V128 where
  lo : U64
  hi : U64
  deriving DecidableEq

/-- `_mm_xor_si128`: `XOR64`, `XOR128`, KeccakF-1600-opt64.c:36, 45. -/
def xor128 (a b : V128) : V128 := ⟨a.lo ^^^ b.lo, a.hi ^^^ b.hi⟩
/-- `_mm_andnot_si128`: `ANDnu64`, `ANDnu128`, KeccakF-1600-opt64.c:31, 39. -/
def andnot128 (a b : V128) : V128 := ⟨~~~ a.lo &&& b.lo, ~~~ a.hi &&& b.hi⟩
/-- `ROL64`, `ROL64in128`, KeccakF-1600-opt64.c:34, 43: `_mm_slli_epi64` and `_mm_srli_epi64` shift each half by itself. -/
def rol128 (a : V128) (o : Nat) : V128 := ⟨rol64 a.lo o, rol64 a.hi o⟩
/-- `_mm_loadl_epi64`: `LOAD64`, `CONST64`, KeccakF-1600-opt64.c:32-33. -/
def load64 (a : U64) : V128 := ⟨a, 0#64⟩
/-- `_mm_load_si128`, `_mm_loadu_si128` of `s[k]`, KeccakF-1600-opt64.c:41-42. Alignment is not modelled. -/
def load128 (s : List U64) (k : Nat) : V128 := ⟨word s k, word s (k + 1)⟩
/-- `_mm_unpacklo_epi64`: `GET64LO`, KeccakF-1600-opt64.c:47. -/
def getLo (a b : V128) : V128 := ⟨a.lo, b.lo⟩
/-- `_mm_unpackhi_epi64`: `GET64HI`, KeccakF-1600-opt64.c:48. -/
def getHi (a b : V128) : V128 := ⟨a.hi, b.hi⟩
/-- `_mm_shuffle_epi32(a, 0xEE)`: `COPY64HI2LO`, KeccakF-1600-opt64.c:49. -/
def hiToLo (a : V128) : V128 := ⟨a.hi, a.hi⟩
/-- `_mm_setzero_si128`: `ZERO128`, KeccakF-1600-opt64.c:51. -/
def zero128 : V128 := ⟨0#64, 0#64⟩

/-- The variables of KeccakF-1600-simd128.macros.h:14-40 that live from one round to the next (`Abage` ... `Asu` or `Ebage` ... `Esu`). -/
structure Lanes128 where''')
for n in lanes128: P('  %s : V128'%n)
P('''
/-- `Cae`, `Cio`, `Cu`, KeccakF-1600-simd128.macros.h:31-32. -/
structure Cols128 where
  ae : V128
  io : V128
  u : V128
''')
def consts(f,nm):
    L=F[f]; ls=[i+1 for i,l in enumerate(L) if 'ULL' in l]; r=[re.search(r'0x[0-9a-f]+',L[i-1]).group(0) for i in ls]; assert len(r)==24
    P('/-- `KeccakF1600RoundConstants`, %s:%d-%d. -/'%(NAME[f],ls[0]-1,ls[-1]))
    P('def %s : List U64 := [\n  '%nm+',\n  '.join(', '.join(x+'#64' for x in r[i:i+4]) for i in range(0,24,4))+']\n')
def rnd(f,mac,k,nm,ls,cols,ty,cty):
    d=find(f,mac,k); b=stmts(body(f,d),f)
    seen=set(); inp=['A'+n for n in ls]+['C'+c for c in cols]
    for n,v,e,r in b:
        for x in r:
            assert x in seen or x in inp,(f,mac,n,x)
        seen.add(v)
    for n in ls: assert 'E'+n in seen,n
    P('/-- `%s(i, A, E)` with `rc = KeccakF1600RoundConstants[i]`, %s:%d-%d. -/'%(mac.rstrip('('),NAME[f],d,b[-1][0]))
    P('def %s (rc : U64) (A : %s) (C : %s) : %s × %s × %s :='%(nm,ty,cty,ty,ty,cty))
    for n in ls: P('  let A%s := A.%s'%(n,n))
    for c in cols: P('  let C%s := C.%s'%(c,c))
    for n,v,e,r in b: P('  let %s := %s'%(v,strip(e)))
    P('  (⟨'+', '.join('A'+n for n in ls)+'⟩,\n   ⟨'+', '.join('E'+n for n in ls)+'⟩,\n   ⟨'+', '.join('C'+c for c in cols)+'⟩)\n')
five='a e i o u'.split()
rnd('w','thetaRhoPiChiIotaPrepareTheta',0,'roundBebi',lanes,five,'Lanes','Cols')
rnd('w','thetaRhoPiChiIota(',0,'lastBebi',lanes,five,'Lanes','Cols')
rnd('w','thetaRhoPiChiIotaPrepareTheta',1,'roundPlain',lanes,five,'Lanes','Cols')
rnd('w','thetaRhoPiChiIota(',1,'lastPlain',lanes,five,'Lanes','Cols')
consts('s','constants64'); consts('t','constants128')
d=find('s','prepareTheta'); b=stmts(body('s',d),'s')
P('/-- `prepareTheta`, %s:%d-%d. -/'%(NAME['s'],d,b[-1][0]))
P('def prepareTheta64 (A : Lanes) : Cols :=')
for n in lanes: P('  let A%s := A.%s'%(n,n))
for n,v,e,r in b: P('  let %s := %s'%(v,strip(e)))
P('  ⟨Ca, Ce, Ci, Co, Cu⟩\n')
rnd('s','thetaRhoPiChiIotaPrepareTheta',0,'round64',lanes,five,'Lanes','Cols')
rnd('s','thetaRhoPiChiIota(',0,'last64',lanes,five,'Lanes','Cols')
assert F['t'][find('t','thetaRhoPiChiIota(')-1]=='#define thetaRhoPiChiIota(i, A, E) thetaRhoPiChiIotaPrepareTheta(i, A, E)'
assert F['t'][find('t','prepareTheta')-1]=='#define prepareTheta'
rnd('t','thetaRhoPiChiIotaPrepareTheta',0,'round128',lanes128,['ae','io','u'],'Lanes128','Cols128')
def copies(f,ls,cols,suffix,ty):
    for mac in ['copyFromState(']+['copyFromStateAndXor%dbits'%r for r in [576,832,1024,1088,1152,1344]]:
        d=find(f,mac); b=stmts(body(f,d),f); seen=set()
        for n,v,e,r in b:
            for x in r: assert x in seen,(mac,n,x)
            seen.add(v)
        inp='state' if mac=='copyFromState(' else 'state input'
        P('/-- `%s`, %s:%d-%d. -/'%(mac.rstrip('('),NAME[f],d,b[-1][0]))
        P('def %s%s (%s : List U64) : %s :='%(mac.rstrip('('),suffix,inp,ty))
        for n,v,e,r in b: P('  let %s := %s'%(v,strip(e)))
        res='⟨'+', '.join('X'+n for n in ls)+'⟩'
        P('  '+(res if not cols else '(%s, ⟨%s⟩)'%(res,', '.join('C'+c for c in cols)))+'\n')
copies('s',lanes,[],'_64','Lanes')
copies('t',lanes128,['ae','io','u'],'_128','Lanes128 × Cols128')
def store(f,suffix,ls,ty):
    d=find(f,'copyToState('); ws=[]; b=body(f,d)
    for k,(n,t) in enumerate(b):
        t=t.replace('##','')
        m=re.match(r'STORE64\(state\[\s*(\d+)\], X(\w+)\);$',t)
        if m: ws.append('X.%s'%m.group(2)+('.lo' if f=='t' else ''))
        else:
            m=re.match(r'state\[\s*(\d+)\] = [AX](\w+)\.v64\[(\d)\];$',t); assert m,t
            ws.append('X.%s.%s'%(m.group(2),['lo','hi'][int(m.group(3))]))
        assert int(m.group(1))==k
    assert len(ws)==25
    P('/-- `copyToState(state, A)`, %s:%d-%d: all 25 words are assigned%s. -/'%(NAME[f],d,b[-1][0],' (`STORE64` is `_mm_storel_epi64`)' if f=='t' else ''))
    P('def copyToState%s (X : %s) : List U64 :=\n  [%s]\n'%(suffix,ty,', '.join(ws)))
store('s','_64',lanes,'Lanes'); store('t','_128',lanes128,'Lanes128')
def copyvars(f,suffix,ls,ty):
    d=find(f,'copyStateVariables('); b=body(f,d); got={}
    for n,t in b:
        m=re.match(r'X##(\w+) = Y##(\w+);$',t); assert m,t; got[m.group(1)]=m.group(2)
    P('/-- `copyStateVariables(X, Y)`, %s:%d-%d. -/'%(NAME[f],d,b[-1][0]))
    P('def copyStateVariables%s (X Y : %s) : %s :=\n  { X with %s }\n'%(suffix,ty,ty,', '.join('%s := Y.%s'%kv for kv in got.items())))
copyvars('w','',lanes,'Lanes'); copyvars('s','_64',lanes,'Lanes'); copyvars('t','_128',lanes128,'Lanes128')
# ---- unrollings --------------------------------------------------------------------------------------------------
P('''/-- One line of a `rounds` macro: a round from `A` to `E` (`fromA`) or from `E` to `A`, the last round (without preparing the next theta), or
`copyStateVariables(A, E)`. KeccakF-1600-unrolling.macros.h. -/
inductive Step where
  | round (i : Nat) (fromA : Bool)
  | last (i : Nat) (fromA : Bool)
  | copy

/-- `for(i=0; i<24; i+=u) { body }`, e.g. KeccakF-1600-unrolling.macros.h:45. -/
def loop (u : Nat) (body : Nat → List Step) : List Step := (List.range (24 / u)).flatMap fun t => body (t * u)

/-- `Unrolling`, KeccakF-1600-unrolling.macros.h:14-124. -/
inductive Unrolling where''')
us=[24,12,8,6,4,3,2,1]
for u in us: P('  | u%d'%u)
P('')
P('/-- The rounds between `prepareTheta` and `copyToState(state, A)`, KeccakF-1600-unrolling.macros.h:14-124. -/')
P('def program : Unrolling → List Step')
U=F['u']
for u in us:
    i=[k for k,l in enumerate(U) if re.match(r'#(el)?if \(Unrolling == %d\)$'%u,l)][0]
    assert U[i+1].startswith('#define rounds') and U[i+2].split()[0]=='prepareTheta'
    j=i+3; steps=[]; loop=False
    while U[j].rstrip().endswith('\\'):
        t=U[j].rstrip().rstrip('\\').strip()
        m=re.match(r'(thetaRhoPiChiIota(?:PrepareTheta)?)\(\s*([i0-9+ ]+?)\s*, (A, E|E, A)\)$',t)
        if m:
            idx=m.group(2).replace(' ',''); idx=idx.replace('+',' + ')
            steps.append('.%s %s %s'%('round' if 'Prepare' in m.group(1) else 'last', '(%s)'%idx if '+' in idx else idx,'true' if m.group(3)=='A, E' else 'false'))
        elif t.startswith('for('):
            loop=True; assert t.replace(' ','') in('for(i=0;i<24;i+=%d){'%u,'for(i=0;i<24;i++){') and (u==1 or '+=' in t)
        elif t=='}': pass
        elif t=='copyStateVariables(A, E)': steps.append('.copy')
        else: raise Exception(t)
        j+=1
    assert U[j].strip()=='copyToState(state, A)'
    s='['+', '.join(steps)+']'
    P('  | .u%d => %s'%(u,'loop %d fun i => %s'%(u,s) if loop else s))
P('\nend Verif.Model.KeccakC')
open('/verif/lean/Verif/Gen/KeccakCVariants.lean','w').write('\n'.join(o)+'\n')

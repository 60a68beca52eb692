#!/usr/bin/env python3
"""Writes lean/Verif/Model/KeccakCPerm.lean from the macros of /repo/keccak (the configuration that is compiled: Unrolling 24, UseBebigokimisa)."""
import re
L=open('/repo/keccak/KeccakF-1600-64.macros.h').read().split('\n')
U=open('/repo/keccak/KeccakF-1600-unrolling.macros.h').read().split('\n')
names=[a+b for a in 'bgkms' for b in 'aeiou']
def body(start):
    """lines (1-based number, text) of the macro whose #define is on line `start`"""
    out=[];i=start
    while L[i-1].rstrip().endswith('\\'):
        out.append((i+1,L[i].rstrip().rstrip('\\').strip())); i+=1
    return [(n,t) for n,t in out if t]
def find(s,k=0):
    return [i+1 for i,l in enumerate(L) if l.startswith('#define '+s)][k]
def expr(e):
    e=e.replace('##','').strip()
    e=e.replace('KeccakF1600RoundConstants[i]','rc')
    e=re.sub(r'ROL64\((\w+),\s*(\d+)\)',r'(ROL64 \1 \2)',e)
    e=e.replace('~','~~~ ').replace('^',' ^^^ ').replace('|',' ||| ').replace('&',' &&& ')
    return re.sub(r'\s+',' ',e).replace('( ','(').replace(' )',')').strip()
def stmts(b):
    out=[]
    for n,t in b:
        for s in t.split(';'):
            s=s.strip()
            if not s: continue
            m=re.match(r'^([\w#]+)\s*(\^?=)\s*(.*)$',s); assert m,s
            v=m.group(1).replace('##',''); e=expr(m.group(3))
            out.append((n,v,e if m.group(2)=='=' else '%s ^^^ %s'%(v,e)))
    return out
o=[]
P=o.append
P('''import Verif.Go

/-!
# Keccak-f[1600] as compiled from the C macros of /repo/keccak

Written by tools/gen_keccakc.py, one `let` per C assignment, from KeccakF-1600-64.macros.h and KeccakF-1600-unrolling.macros.h in the
configuration KeccakF-1600-opt64-settings.h selects (`Unrolling 24`, `UseBebigokimisa`, no SSE, no MMX). A C variable that is assigned
twice is shadowed. A round macro is called with (A, E) and (E, A) in turn; it writes all of its third argument before reading any of it and
the caller never reads its second argument again, so it is a function from lanes to lanes.
-/

namespace Verif.Model.KeccakC
open Verif

/-- The 25 lanes of KeccakF-1600-64.macros.h:16-33 (`Aba` ... `Asu` or `Eba` ... `Esu`). -/
structure Lanes where''')
for n in names: P('  %s : U64'%n)
P('''  deriving DecidableEq

/-- `Ca`, `Ce`, `Ci`, `Co`, `Cu`, KeccakF-1600-64.macros.h:27. -/
structure Cols where
  a : U64
  e : U64
  i : U64
  o : U64
  u : U64
  deriving DecidableEq

/-- `ROL64`, KeccakF-1600-opt64.c:89. -/
def ROL64 (a : U64) (offset : Nat) : U64 := (a <<< offset) ^^^ (a >>> (64 - offset))
''')
rcs=[re.search(r'0x[0-9a-f]+',l).group(0) for l in L if 'ULL' in l]
n0=[i+1 for i,l in enumerate(L) if 'ULL' in l]
P('/-- `KeccakF1600RoundConstants`, KeccakF-1600-64.macros.h:%d-%d. -/'%(n0[0]-1,n0[-1]))
P('def roundConstants : List U64 := [\n  '+',\n  '.join(', '.join(r+'#64' for r in rcs[i:i+4]) for i in range(0,24,4))+']\n')
d=find('prepareTheta'); b=stmts(body(d))
P('/-- `prepareTheta`, KeccakF-1600-64.macros.h:%d-%d. -/'%(d,b[-1][0]))
P('def prepareTheta (A : Lanes) : Cols :=')
for n in names: P('  let A%s := A.%s'%(n,n))
for n,v,e in b: P('  let %s := %s'%(v,e))
P('  ⟨Ca, Ce, Ci, Co, Cu⟩\n')
for mac in ['thetaRhoPiChiIotaPrepareTheta','thetaRhoPiChiIota(']:
    d=find(mac,0); b=stmts(body(d)); nm=mac.rstrip('(')
    full='Prepare' in nm
    P('/-- `%s(i, A, E)` with `rc = KeccakF1600RoundConstants[i]`, KeccakF-1600-64.macros.h:%d-%d. -/'%(nm,d,b[-1][0]))
    P('def %s (rc : U64) (A : Lanes) (C : Cols) : %s :='%(nm,'Lanes × Cols' if full else 'Lanes'))
    for n in names: P('  let A%s := A.%s'%(n,n))
    for n in 'aeiou': P('  let C%s := C.%s'%(n,n))
    for n,v,e in b: P('  let %s := %s'%(v,e))
    res='⟨'+', '.join('E'+n for n in names)+'⟩'
    P('  '+('(%s, ⟨Ca, Ce, Ci, Co, Cu⟩)'%res if full else res)+'\n')
# rounds
i=U.index('#if (Unrolling == 24)'); seq=[]
j=i+2
last=None
while True:
    t=U[j].strip().rstrip('\\').strip()
    m=re.match(r'(\w+)\(\s*(\d+), (\w), (\w)\)',t)
    if m: seq.append((m.group(1),int(m.group(2)),m.group(3),m.group(4)))
    if not U[j].rstrip().endswith('\\'): break
    j+=1
assert U[i+2].strip().startswith('prepareTheta') and U[j].strip()=='copyToState(state, A)'
cur='A'
for k,(f,n,x,y) in enumerate(seq):
    assert n==k and x==cur and f==('thetaRhoPiChiIotaPrepareTheta' if k<23 else 'thetaRhoPiChiIota'); cur=y
assert cur=='A' and len(seq)==24
P('''/-- `rounds` up to the copy to the state, KeccakF-1600-unrolling.macros.h:%d-%d: `prepareTheta`, 23 rounds that also prepare the next
theta, alternating between `A` and `E` (the generator checks that the macro lists rounds 0 to 22 in this order), and a last round without. -/
def rounds (A : Lanes) : Lanes :='''%(i+2,j))
P('  let (E, C) := (List.range 23).foldl (fun (q : Lanes × Cols) i => thetaRhoPiChiIotaPrepareTheta (roundConstants.getD i 0#64) q.1 q.2) (A, prepareTheta A)')
P('  thetaRhoPiChiIota (roundConstants.getD 23 0#64) E C\n')
P('/-- `state[i]`: the state is an array of 25 words, so constant indices below 25 are in range. -/\ndef word (S : List U64) (i : Nat) : U64 := S.getD i 0#64\n')
d=find('copyFromState(')
b=body(d)
P('/-- `copyFromState`, KeccakF-1600-64.macros.h:%d-%d. -/'%(d,b[-1][0]))
vals=[]
for (n,t),nm in zip(b,names):
    m=re.match(r'X##(\w\w) = state\[\s*(\d+)\];',t); assert m and m.group(1)==nm,t
    vals.append('word state %s'%m.group(2))
P('def copyFromState (state : List U64) : Lanes :=\n  ⟨'+', '.join(vals)+'⟩\n')
d=find('copyToState('); b=body(d); ws=[]
for k,((n,t),nm) in enumerate(zip(b,names)):
    m=re.match(r'state\[\s*(\d+)\] = X##(\w\w);',t); assert m and int(m.group(1))==k,t
    ws.append('X.'+m.group(2))
P('/-- `copyToState`, KeccakF-1600-64.macros.h:%d-%d: all 25 words are assigned. -/'%(d,b[-1][0]))
P('def copyToState (X : Lanes) : List U64 :=\n  ['+', '.join(ws)+']\n')
for r in [576,832,1024,1088,1152,1344]:
    d=find('copyFromStateAndXor%dbits'%r); b=body(d); vals=[]
    for (n,t),nm in zip(b,names):
        m=re.match(r'X##(\w\w) = state\[\s*(\d+)\](\^input\[\s*(\d+)\])?;',t); assert m and m.group(1)==nm,t
        vals.append('word state %s'%m.group(2)+(' ^^^ word input %s'%m.group(4) if m.group(3) else ''))
    P('/-- `copyFromStateAndXor%dbits`, KeccakF-1600-64.macros.h:%d-%d. -/'%(r,d,b[-1][0]))
    P('def copyFromStateAndXor%dbits (state input : List U64) : Lanes :=\n  ⟨'%r+',\n    '.join(', '.join(vals[i:i+5]) for i in range(0,25,5))+'⟩\n')
P('end Verif.Model.KeccakC')
open('/verif/lean/Verif/Model/KeccakCPerm.lean','w').write('\n'.join(o)+'\n')

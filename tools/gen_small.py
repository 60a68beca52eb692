#!/usr/bin/env python3
"""Writes the Lean literals of the tables in /repo/sbox/sbox.go and /repo/mahash/mahash8v64.go."""
import re
def tab(f,a,z,w,n):
    s=open(f).read(); i=s.index(a)+len(a); j=s.index(z,i)
    t=[int(x,16) for x in re.findall(r'0x[0-9a-fA-F]+',s[i:j])]
    assert len(t)==256
    out="def %s : List U%d := [\n"%(n,w)
    for k in range(0,256,8): out+="  "+", ".join("0x%0*x#%d"%(w//4,x,w) for x in t[k:k+8])+(",\n" if k<248 else "]\n")
    return out
print("import Verif.Go\n\n/-! Tables of packages sbox and mahash, written by tools/gen_small.py from the Go source. -/\n\nnamespace Verif.Gen\nopen Verif\n")
print("/-- `SBoxTable`, /repo/sbox/sbox.go:7-40. -/")
print(tab('/repo/sbox/sbox.go','SBoxTable = [256]uint32{','func Sbox',32,'SBoxTable'))
print("/-- `sTable`, /repo/mahash/mahash8v64.go:8-25. -/")
print(tab('/repo/mahash/mahash8v64.go','sTable = [256]byte{','func LROT14',8,'sTable'))
print("end Verif.Gen")

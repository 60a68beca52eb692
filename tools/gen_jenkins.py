#!/usr/bin/env python3
"""Writes the long fallthrough switches of lean/Verif/Model/Jenkins.lean (between the GEN markers)."""
import re
out=[]
# Hash232: jenkins.go:150-188
sw=[(11,'c',10,24),(10,'c',9,16),(9,'c',8,8),(8,'b',7,24),(7,'b',6,16),(6,'b',5,8),(5,'b',4,0),(4,'a',3,24),(3,'a',2,16),(2,'a',1,8),(1,'c',0,0)]
def gen(pref, W, sw, final, line0):
    out=[f"def {pref}0 (_ : List U8) (s : S3 {W}) : Go (S3 {W}) := .ok s"]
    for (case,reg,i,sh) in reversed(sw):
        shs = f" <<< {sh}" if sh else ""
        out.append(f"def {pref}{case} (k : List U8) (s : S3 {W}) : Go (S3 {W}) := do {pref}{case-1} k {{ s with {reg} := s.{reg} + (← Go.idx k {i}).setWidth {W}{shs} }}")
    return "\n".join(out)
print("/-! `case N` of the switch of `Hash232`, jenkins.go:150-188. -/")
print(gen("h232c",32,sw,None,0))
print()
sw64=[]
for case in range(23,16,-1): sw64.append((case,'c',case-1,8*(case-16)))
for case in range(16,8,-1): sw64.append((case,'b',case-1,8*(case-9)))
for case in range(8,0,-1): sw64.append((case,'a',case-1,8*(case-1)))
print("/-! `case N` of the switch of `Hash264`, jenkins.go:343-416. -/")
print(gen("h264c",64,sw64,None,0))

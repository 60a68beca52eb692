#!/usr/bin/env python3
"""Transcribes the assignments of Mix, EndPartial, ShortMix and ShortEnd of /repo/spooky/spooky.go into
instruction lists (one list row per source line). Output is pasted into lean/Verif/Model/Spooky.lean."""
import re
L=open('/repo/spooky/spooky.go').read().split('\n')
def fn(name,var,lean,n):
    i=next(k for k,l in enumerate(L) if l.startswith('func %s('%name))
    rows=[];j=i+1
    while not L[j].strip().startswith('return'):
        ins=[]
        for st in filter(None,[x.strip() for x in L[j].split(';')]):
            m=re.match(r'%s(\d+)\s*\+=\s*data\[(\d+)\]$'%var,st)
            if m: ins.append('.add %s [.par %s]'%m.groups()); continue
            m=re.match(r'%s(\d+)\s*\+=\s*%s(\d+)$'%(var,var),st)
            if m: ins.append('.add %s [.reg %s]'%m.groups()); continue
            m=re.match(r'%s(\d+)\s*\^=\s*%s(\d+)$'%(var,var),st)
            if m: ins.append('.xor %s %s'%m.groups()); continue
            m=re.match(r'%s(\d+)\s*=\s*Rot64\(%s(\d+),(\d+)\)$'%(var,var),st)
            if m and m.group(1)==m.group(2): ins.append('.rotl %s %s'%(m.group(1),m.group(3))); continue
            raise Exception(st)
        rows.append(ins); j+=1
    print('/-- The assignments of `%s`, spooky.go:%d-%d. -/'%(name,i+1,j+2))
    print('def %s : List (Instr %d) := ['%(lean,n))
    print(',\n'.join('  '+', '.join(r) for r in rows)+']\n')
fn('Mix','s','mixProg',12); fn('EndPartial','h','endPartialProg',12); fn('ShortMix','h','shortMixProg',4); fn('ShortEnd','h','shortEndProg',4)

#!/usr/bin/env python3
"""Translates /repo/siphash/hash_amd64.s and hash128_amd64.s, instruction by instruction, into the
instruction lists of Verif/Gen/SipAsm.lean. Jump labels are resolved to instruction indices."""
import re
REGS = {"AX","BX","CX","DX","SI","DI","R8","R9","R10","R11"}
ARGS = {"k0+0(FP)": "k0", "k1+8(FP)": "k1", "b_base+16(FP)": "base", "b_len+24(FP)": "len"}
RETS = {"ret+40(FP)": 0, "r0+40(FP)": 0, "r1+48(FP)": 1}
def reg(x):
    assert x in REGS, x
    return "." + x
def imm(x):
    assert x[0] == "$", x
    return "0x%x#64" % int(x[1:], 16)
def nat(x):
    return str(int(x[1:], 16))
def mem(x):
    m = re.fullmatch(r"(0x[0-9A-Fa-f]+|\d*)\((\w+)\)\((\w+)\*1\)", x)
    off = int(m.group(1) or "0", 0)
    return f"{off} {reg(m.group(2))} {reg(m.group(3))}"
def trans(path):
    ins, labels = [], {}
    for ln, l in enumerate(open(path), 1):
        l = l.split("//")[0].strip()
        if not l or l.startswith("TEXT"): continue
        m = re.match(r"(\w+):\s*(.*)", l)
        if m:
            labels[m.group(1)] = len(ins); l = m.group(2)
            if not l: continue
        op, *rest = l.split(None, 1)
        a = [x.strip() for x in rest[0].split(",")] if rest else []
        ins.append((ln, l, op, a))
    out = []
    for ln, l, op, a in ins:
        if op == "MOVQ":
            s, d = a
            if d in RETS: t = f".movRet {reg(s)} {RETS[d]}"
            elif s in ARGS: t = f".movArg .{ARGS[s]} {reg(d)}"
            elif s[0] == "$": t = f".movImm {imm(s)} {reg(d)}"
            elif "(" in s: t = f".load64 {mem(s)} {reg(d)}"
            else: t = f".mov {reg(s)} {reg(d)}"
        elif op == "MOVBQZX": t = f".load8 {mem(a[0])} {reg(a[1])}"
        elif op == "LEAQ": t = f".lea {mem(a[0])} {reg(a[1])}"
        elif op in ("ADDQ", "XORQ", "ORQ", "ANDQ", "SUBQ"):
            n = op[:-1].lower()
            t = f".{n}I {imm(a[0])} {reg(a[1])}" if a[0][0] == "$" else f".{n} {reg(a[0])} {reg(a[1])}"
        elif op == "XORB":
            t = f".xorbI 0x{int(a[0][1:],16):x}#8 {reg({'CL':'CX','AL':'AX'}[a[1]])}"
        elif op == "RORQ": t = f".ror {nat(a[0])} {reg(a[1])}"
        elif op == "SHLQ": t = f".shl {nat(a[0])} {reg(a[1])}"
        elif op == "CMPQ":
            t = f".cmpI {reg(a[0])} {imm(a[1])}" if a[1][0] == "$" else f".cmp {reg(a[0])} {reg(a[1])}"
        elif op == "XCHGQ":
            assert a[0] == a[1]; t = ".nop"
        elif op in ("JE", "JA", "JMP"): t = f".{op.lower()} {labels[a[0]]}"
        elif op == "RET": t = ".ret"
        else: raise Exception(op)
        out.append((ln, l.replace("\t", " "), t))
    return out
f = open("/verif/lean/Verif/Gen/SipAsm.lean", "w")
f.write('''import Verif.Model.X86

/-! Generated by tools/gen_sipasm.py from /repo/siphash/hash_amd64.s and hash128_amd64.s; one entry per
source instruction, with its line number and text. Do not edit. -/

namespace Verif.Gen.SipAsm
open Verif.Model.X86

''')
for name, file in (("hash64", "hash_amd64.s"), ("hash128", "hash128_amd64.s")):
    code = trans("/repo/siphash/" + file)
    f.write(f"/-- `{'Hash' if name == 'hash64' else 'Hash128'}`, siphash/{file}:{code[0][0]}-{code[-1][0]}. -/\ndef {name} : List Ins := [\n")
    for i, (ln, src, t) in enumerate(code):
        f.write(f"  {t}{',' if i + 1 < len(code) else ']'} -- {i}: line {ln}: {src}\n")
    f.write("\n")
f.write("end Verif.Gen.SipAsm\n")

#!/usr/bin/env python3
"""Checks that every inlined SipHash round in /repo/siphash/*.go is textually the same 14 lines,
so that Model/SipHash.lean may name it once (`round`)."""
import re
R = """v0 += v1
v1 = v1<<13 | v1>>(64-13)
v1 ^= v0
v0 = v0<<32 | v0>>(64-32)
v2 += v3
v3 = v3<<16 | v3>>(64-16)
v3 ^= v2
v0 += v3
v3 = v3<<21 | v3>>(64-21)
v3 ^= v0
v2 += v1
v1 = v1<<17 | v1>>(64-17)
v1 ^= v2
v2 = v2<<32 | v2>>(64-32)
"""
for f in ("hash.go", "hash128.go", "siphash.go"):
    t = open("/repo/siphash/" + f).read()
    t = "".join(l.strip() + "\n" for l in t.split("\n") if l.strip() and not l.strip().startswith("//"))
    print(f, t.count(R), "rounds;", len(re.findall(r"v0 \+= v1", t)), "round starts")
    print(t.replace(R, "ROUND\n")[:] if f != "siphash.go" else "")

#!/usr/bin/env python3
"""Replaces section 6 of DESIGN.md by the axioms each manifest theorem depends on (asks Lean; needs a built /verif/lean)."""
import json, re, subprocess, collections
names = [t for c in json.load(open('/verif/MANIFEST.json'))['claims'] for t in c['theorems']]
names = list(dict.fromkeys(names))
src = "import Verif\n" + "".join(f"#print axioms {n}\n" for n in names)
open('/tmp/ax.lean', 'w').write(src)
out = subprocess.run(['lake', 'env', 'lean', '/tmp/ax.lean'], cwd='/verif/lean', capture_output=True, text=True).stdout
g = collections.defaultdict(list)
for m in re.finditer(r"'([^']+)' (does not depend on any axioms|depends on axioms:\s*\[([^\]]*)\])", out):
    ax = tuple(sorted(a.strip() for a in (m.group(3) or '').split(',') if a.strip()))
    g[ax].append(m.group(1).replace('Verif.Props.', ''))
assert sum(map(len, g.values())) == len(names), (sum(map(len, g.values())), len(names))
s = "Generated by `tools/axioms.py` from `#print axioms`; names relative to `Verif.Props`.\n"
for ax in sorted(g):
    s += f"\n* **{', '.join(ax) or 'no axioms'}** ({len(g[ax])}): {', '.join(g[ax])}\n"
d = open('/verif/DESIGN.md').read()
i = d.index('## 6. Axioms of each theorem\n') + len('## 6. Axioms of each theorem\n')
open('/verif/DESIGN.md', 'w').write(d[:i] + s)
print({k: len(v) for k, v in g.items()})

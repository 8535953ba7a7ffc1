#!/usr/bin/env python3
"""Writes AXIOMS.md: the axioms every property theorem depends on, as printed by Lean."""
import json, re, subprocess, collections
names = [t for c in json.load(open('/verif/MANIFEST.json'))['claims'] for t in c['theorems']]
open('/tmp/axioms.lean', 'w').write('import Verif\n' + '\n'.join(f'#print axioms {n}' for n in names) + '\n')
r = subprocess.run(['lake', 'env', 'lean', '/tmp/axioms.lean'], cwd='/verif/lean', capture_output=True, text=True)
t = r.stdout
ax = {n: 'none' for n in re.findall(r"'([^']+)' does not depend on any axioms", t)}
ax.update({n: ', '.join(sorted(re.sub(r'\s+', ' ', a).split(', '))) for n, a in re.findall(r"'([^']+)' depends on axioms: \[([^\]]*)\]", t)})
missing = [n for n in names if n not in ax]
assert not missing, missing
g = collections.defaultdict(list)
for n in names: g[ax[n]].append(n)
with open('/verif/AXIOMS.md', 'w') as o:
    o.write('# Axioms of the property theorems\n\nGenerated by `tools/axioms.py` with `#print axioms`.\n')
    for a in sorted(g):
        o.write(f'\n## {a}\n\n' + '\n'.join(f'* `{n}`' for n in g[a]) + '\n')
print({a: len(l) for a, l in g.items()})

#!/usr/bin/env python3
"""Regenerates the sections "Plan per property" and "Disagreements" of DESIGN.md from properties.jsonl, MANIFEST.json and tools/plan.json."""
import glob, json, re
s = open('/verif/DESIGN.md').read()
plan = json.load(open('/verif/tools/plan.json'))
M = {c['property']: c for c in json.load(open('/verif/MANIFEST.json'))['claims']}
src = {}
for p in glob.glob('/verif/lean/Verif/Props/*.lean'):
    for n in re.findall(r'^theorem (C\d+)_', open(p).read(), re.M): src.setdefault(n, set()).add(p.split('/')[-1][:-5])
rows = ['| id | property | status | modules | model | proof |', '|----|----|----|----|----|----|']
dis = []
for l in open('/verif/properties.jsonl'):
    d = json.loads(l); k = d['id']; a, b = plan.get(k, ('', ''))
    if k not in plan: print('no plan for', k)
    rows.append(f"| {k} | {d['title']} | {M[k]['status']} | {', '.join(sorted(src.get(k, [])))} | {a} | {b} |")
    r = [t.split('.')[-1] for t in M[k]['theorems'] if 'refuted' in t]
    if r: dis.append(f"* {k}: {', '.join('`' + x + '`' for x in r)}" + (f" – {M[k]['note']}" if M[k]['note'] else ''))
s = re.sub(r'(## Plan per property\n\n).*?(\n\n## )', lambda m: m.group(1) + '\n'.join(rows) + m.group(2), s, flags=re.S)
s = re.sub(r'(not only a remark\.\n\n).*?(\n\n## )', lambda m: m.group(1) + '\n'.join(dis) + m.group(2), s, flags=re.S)
open('/verif/DESIGN.md', 'w').write(s)

#!/usr/bin/env python3
"""Writes COVERAGE.md: for every file of /repo, the model definitions that cite it and the lines they cite."""
import glob, re, os, collections
ROOT = '/verif'
files = sorted(f[len('/repo/'):] for f in glob.glob('/repo/gtda/**/*.py', recursive=True) if '/tests/' not in f)
cov = collections.defaultdict(list)
for p in sorted(glob.glob(f'{ROOT}/lean/Verif/Model/*.lean')):
    t = open(p).read()
    head = t.split('namespace')[0]
    for m in re.finditer(r'/--((?:(?!-/).)*)-/\s*(?:@\[[^\]]*\]\s*)?(?:noncomputable |private |mutual\s+)*(?:def|structure|inductive|abbrev)\s+([^\s:(\[{]+)', t, re.S):
        doc, name = m.groups()
        if 'Used in `' in doc: continue
        for f, l in re.findall(r'((?:gtda/)?[\w/]+\.py):(\d[\d, \-–]*)', doc):
            c = [g for g in files if g == f or g.endswith('/' + f)]
            c = [g for g in c if g in head] or c
            if c: cov[c[0]].append((int(re.match(r'\d+', l).group()), l.strip(' ,-'), f'{os.path.basename(p)[:-5]}.{name}'))
with open(f'{ROOT}/COVERAGE.md', 'w') as o:
    o.write('# Model definitions by source file\n\nGenerated by `tools/coverage.py` from the citations in the model. Helpers (data types and numpy, scipy or scikit-learn primitives) are omitted.\n')
    for f in files:
        if f.endswith('__init__.py') and f not in cov: continue
        o.write(f'\n## {f}\n\n')
        if f not in cov: o.write('Not modelled (see DESIGN.md).\n'); continue
        seen = set()
        for _, l, n in sorted(cov[f]):
            if (l, n) not in seen: seen.add((l, n)); o.write(f'* {l}: `{n}`\n')

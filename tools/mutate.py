#!/usr/bin/env python3
"""Seeded-bug tests.  Usage: mutate.py MUTATIONS.json [--log]

Each entry: {"definition", "module" (e.g. Verif/Model/TimeSeries.lean), "old", "new", "edit" (English), "claim",
"props": ["Verif/Props/X.lean", ...], "tightened": [...] }.
All project modules needed by the given property modules and depending on the edited module are concatenated in one file outside /verif (so that a failing lemma does not hide
what happens downstream), the others are imported, the edit is applied to the module's text, and the file is run through Lean.  A property theorem counts as failed if an error is
reported in it or if it depends on a declaration that failed
(sorryAx, or a name the kernel rejected, in its axioms).  Before, each combination of edited module and property modules is run without an edit (control): what fails there fails
because of the concatenation (names that become ambiguous), and is left out of the results."""
import json, os, re, subprocess, sys
from concurrent.futures import ThreadPoolExecutor
ROOT = '/verif/lean'
SCR = os.environ.get("SCR", "/tmp/mut")
os.makedirs(SCR, exist_ok=True)

def deps(paths):
    seen, order, ext = set(), [], []
    def visit(p):
        if p in seen: return
        seen.add(p)
        for m in re.findall(r'^import (\S+)', open(f'{ROOT}/{p}').read(), re.M):
            if m.startswith('Verif.'): visit(m.replace('.', '/') + '.lean')
            elif m not in ext: ext.append(m)
        order.append(p)
    for p in paths: visit(p)
    return order, ext

def run(idx, mu, examples=True):
    order, ext = deps(mu['props'])
    out, owner = [f'import {m}' for m in ext], []
    owner += [None] * len(out)
    names = []
    if mu['module'] not in order: return mu, ['MODULE NOT REACHED'], []
    down = [p for p in order if mu['module'] in deps([p])[0]]
    out += [f"import {p[:-5].replace('/', '.')}" for p in order if p not in down]
    owner += [None] * (len(out) - len(owner))
    order = down
    for p in order:
        t = open(f'{ROOT}/{p}').read()
        if p == mu['module']:
            if t.count(mu['old']) != mu.get('count', 1): return mu, [f"OLD TEXT OCCURS {t.count(mu['old'])} TIMES"], []
            t = t.replace(mu['old'], mu['new'])
        t = re.sub(r'^import .*$', '', t, flags=re.M)
        if not examples: t = re.sub(r'^example\b(?:.+\n)+', '\n', t, flags=re.M)
        cur, stack = None, []
        for line in t.split('\n'):
            n = re.match(r'^namespace (\S+)', line)
            if n: stack.append(n.group(1))
            elif re.match(r'^(noncomputable )?section\b|^mutual\b', line): stack.append('')
            elif re.match(r'^end\b', line) and stack: stack.pop()
            ns = '.'.join(x for x in stack if x)
            m = re.match(r'^(?:@\[[^\]]*\] *)?(?:private |protected |noncomputable )*(theorem|lemma|def|abbrev|example|instance|structure|inductive)\s*([^\s:(\[{]*)', line)
            if m:
                cur = m.group(2) if m.group(1) != 'example' else f'example after {cur}'
                if m.group(1) == 'theorem' and p in mu['props'] and re.match(r'C\d\d', m.group(2)): names.append(ns + '.' + m.group(2))
            out.append(line); owner.append((p, cur))
    for n in names:
        out.append(f'#print axioms {n}'); owner.append(None)
    f = f'{SCR}/m{idx}.lean'
    open(f, 'w').write('\n'.join(out))
    for k in range(4):
        r = subprocess.run(['lake', 'env', 'lean', f], cwd=ROOT, capture_output=True, text=True, timeout=1500)
        if r.returncode in (0, 1): break  # otherwise the prover was killed (memory): try again
        if examples: return run(idx, mu, False)  # evaluating a false example can exhaust the memory: leave the examples out
    if r.returncode not in (0, 1): return mu, ['PROVER KILLED'], []
    txt = r.stdout + r.stderr
    failed, sorry = [], []
    for m in re.finditer(r'm%d\.lean:(\d+):\d+: error' % idx, txt):
        o = owner[int(m.group(1)) - 1]
        lab = o[1] if o else 'end'
        if lab not in failed: failed.append(lab)
    sorry += [x for x in failed if re.match(r'C\d\d+_', x) and x not in sorry]
    for m in re.finditer(r"'([^']+)' depends on axioms: \[([^\]]*)\]", txt):
        if set(m.group(2).replace(',', ' ').split()) - {'propext', 'Classical.choice', 'Quot.sound'} and m.group(1).split('.')[-1] not in sorry: sorry.append(m.group(1).split('.')[-1])
    return mu, failed, sorry

def control(a):
    text = open(f'{ROOT}/{a[1][0]}').read()
    _, failed, sorry = run(a[0], {'module': a[1][0], 'props': list(a[1][1]), 'old': text, 'new': text})
    return a[1], set(failed) | set(sorry)

muts = json.load(open(sys.argv[1]))
with ThreadPoolExecutor(int(os.environ.get("JOBS", "3"))) as ex:
    keys = sorted({(mu['module'], tuple(mu['props'])) for mu in muts})
    controls = dict(ex.map(control, ((10000 + i, k) for i, k in enumerate(keys))))
    res = list(ex.map(lambda a: run(*a), enumerate(muts)))
for mu, failed, sorry in res:
    spurious = controls[(mu['module'], tuple(mu['props']))]
    failed, sorry = [x for x in failed if x not in spurious], [x for x in sorry if x not in spurious]
    allf = sorry + [x for x in failed if x not in sorry]
    print(('SURVIVED ' if not sorry else 'killed   ') + mu['definition'], '|', mu['edit'], '|', ', '.join(allf)[:300])
    if '--log' in sys.argv and not any('OLD TEXT' in x or 'NOT REACHED' in x or 'PROVER KILLED' in x for x in failed):
        with open('/verif/seeded/LOG.jsonl', 'a') as g:
            g.write(json.dumps({'definition': mu['definition'], 'module': mu['module'], 'edit': mu['edit'], 'old': mu['old'], 'new': mu['new'], 'claim': mu['claim'],
                'theorems_failed': sorry, 'other_failures': [x for x in failed if x not in sorry],
                'theorems_tightened': mu.get('tightened', []), 'note': mu.get('note', '')}, ensure_ascii=False) + '\n')

"""Regenerate MANIFEST.json and lean/Verif.lean from the property files.

Statuses and notes come from tools/status.json: {"C01": ["proved", "note"], ...}.
"""
import json, re, glob, os
root = os.path.dirname(os.path.dirname(os.path.abspath(__file__)))
status = json.load(open(root + "/tools/status.json"))
thms = {}
for f in sorted(glob.glob(root + "/lean/Verif/Props/*.lean")):
    ns = None
    for line in open(f):
        m = re.match(r"namespace (\S+)", line)
        if m: ns = m.group(1)
        m = re.match(r"theorem ((C\d\d\d?)_\S+)", line)
        if m: thms.setdefault(m.group(2), []).append(ns + "." + m.group(1))
ids = [json.loads(l)["id"] for l in open(root + "/properties.jsonl") if l.strip()]
claims = []
for i in ids:
    if i not in thms: continue
    st, note = status.get(i, ["proved", ""])
    claims.append({"property": i, "status": st, "theorems": thms[i], "note": note})
for i in thms:
    assert i in ids, i
json.dump({"claims": claims}, open(root + "/MANIFEST.json", "w"), indent=1)
mods = sorted(os.path.relpath(f, root + "/lean")[:-5].replace("/", ".")
              for f in glob.glob(root + "/lean/Verif/**/*.lean", recursive=True))
open(root + "/lean/Verif.lean", "w").write("".join(f"import {m}\n" for m in mods))
print(len(claims), "claims;", sum(len(c["theorems"]) for c in claims), "theorems; missing:", [i for i in ids if i not in thms])

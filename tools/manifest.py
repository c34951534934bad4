#!/usr/bin/env python3
"""Regenerate MANIFEST.json from the theorem names in lean/Verif/Props and tools/notes.json.

A property with a theorem whose name ends in _partial or contains _violated is 'partial',
others with a theorem are 'proved'.  notes.json may override the status.
"""
import glob, json, os, re
root = os.path.dirname(os.path.dirname(os.path.abspath(__file__)))
notes = json.load(open(os.path.join(root, "tools", "notes.json")))
props = [json.loads(l) for l in open(os.path.join(root, "properties.jsonl"))]
found = {}
for f in sorted(glob.glob(os.path.join(root, "lean/Verif/Props/*.lean"))):
    ns = []
    for line in open(f):
        m = re.match(r"namespace (\S+)", line)
        if m: ns.append(m.group(1)); continue
        m = re.match(r"end (\S+)", line)
        if m and ns and ns[-1] == m.group(1): ns.pop(); continue
        m = re.match(r"(?:@\[[^\]]*\] )?theorem (C(\d+)_\w+)", line)
        if m:
            found.setdefault("C" + m.group(2), []).append(".".join(ns + [m.group(1)]))
claims = []
for p in props:
    i = p["id"]
    n = notes.get(i, {})
    th = found.get(i, [])
    if not th and "status" not in n:
        continue
    part = any(t.endswith("_partial") or "_violated" in t for t in th)
    claims.append(dict(property=i, status=n.get("status", "partial" if part else "proved"),
                       theorems=th, note=n.get("note", "")))
json.dump({"claims": claims}, open(os.path.join(root, "MANIFEST.json"), "w"), indent=1, ensure_ascii=False)
missing = [p["id"] for p in props if p["id"] not in {c["property"] for c in claims}]
print(len(claims), "claims;", "missing:", missing)
with open("/tmp/axioms.lean", "w") as g:
    g.write("import Verif\n")
    for c in claims:
        for t in c["theorems"]:
            g.write("#print axioms %s\n" % t)

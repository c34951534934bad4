#!/usr/bin/env python3
"""Puts DESIGN.md together. Usage: design.py AXIOMS_OUTPUT"""
import json, os, re, sys, glob
R = os.path.dirname(os.path.dirname(os.path.abspath(__file__)))
p = lambda *a: os.path.join(R, *a)
out = [open(p('tools/design_head.md')).read().rstrip(), ""]
plan = json.load(open(p('tools/plan.json')))
man = {c['property']: c for c in json.load(open(p('MANIFEST.json')))['claims']}
props = [json.loads(l) for l in open(p('properties.jsonl'))]
out += ["## Plan per property", ""]
for d in props:
    out.append("* **%s** %s" % (d['id'], plan.get(d['id'], d['title'] + '.')))
out += ["", "## What is modelled", "", "From the headers of the model files; each definition cites its lines.", ""]
for f in sorted(glob.glob(p('lean/Verif/Model/*.lean'))):
    s = open(f).read()
    m = re.search(r"/-!(.*?)-/", s, re.S)
    txt = " ".join(m.group(1).split()).lstrip("# ") if m else ""
    cites = sorted(set(re.findall(r"[\w/]+\.(?:py|pyx|f90)\b", s)))
    out.append("* `%s`: %s (cites %s)" % (os.path.basename(f), txt, ", ".join(cites) or "nothing"))
out += ["", "## Results", ""]
for d in props:
    c = man[d['id']]
    out.append("* **%s** %s: *%s*. %s Theorems: %s." % (d['id'], d['title'], c['status'], c.get('note', ''),
               ", ".join("`%s`" % t.split('.')[-1] for t in c['theorems'])))
out += ["", "## Disagreements between the code and the properties", "",
        "Every theorem whose name contains `_violated`; the notes above say what goes wrong.", ""]
for d in props:
    v = [t.split('.')[-1] for t in man[d['id']]['theorems'] if '_violated' in t]
    if v:
        out.append("* %s: %s" % (d['id'], ", ".join("`%s`" % t for t in v)))
out += ["", "## Axioms", ""]
g = {}
for m in re.finditer(r"'([\w.']+)' (does not depend on any axioms|depends on axioms: \[([^\]]*)\])", open(sys.argv[1]).read()):
    g.setdefault(m.group(3) or "no axioms", []).append(m.group(1).split('.')[-1])
for k in sorted(g):
    out.append("* %s: %s" % (" ".join(k.split()), ", ".join("`%s`" % t for t in g[k])))
open(p('DESIGN.md'), 'w').write("\n".join(out) + "\n")

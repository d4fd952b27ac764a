#!/usr/bin/env python3
"""Writes MANIFEST.json: collects the theorems named Cnn_* in lean/Verif/Props and the status notes below."""
import json, os, re, glob
root = os.path.join(os.path.dirname(os.path.abspath(__file__)), "..")
NOTES = {}
exec(open(os.path.join(root, "tools", "notes.py")).read(), NOTES)
notes = NOTES["NOTES"]
found = {}
for f in sorted(glob.glob(os.path.join(root, "lean/Verif/Props/*.lean"))):
    ns = []
    for line in open(f):
        m = re.match(r"namespace (\S+)", line)
        if m: ns.append(m.group(1))
        m = re.match(r"end (\S+)", line)
        if m and ns and ns[-1] == m.group(1): ns.pop()
        m = re.match(r"(?:private |protected )?theorem (\S+)", line)
        if m:
            name = ".".join(ns + [m.group(1)])
            k = re.match(r"C(\d\d)_", m.group(1))
            if k: found.setdefault("C" + k.group(1), []).append(name)
props = [json.loads(l)["id"] for l in open(os.path.join(root, "properties.jsonl"))]
claims = []
for p in props:
    if p in found:
        st, note = notes.get(p, ("proved", ""))
        claims.append(dict(property=p, status=st, theorems=found[p], note=note))
json.dump({"claims": claims}, open(os.path.join(root, "MANIFEST.json"), "w"), indent=1)
print(len(claims), "claims,", sum(len(c["theorems"]) for c in claims), "theorems; missing", [p for p in props if p not in found])

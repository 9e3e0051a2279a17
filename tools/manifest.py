#!/usr/bin/env python3
"""Regenerate MANIFEST.json: collects the theorems named Cnn_* from lean/Verif/Props and the status and
notes from tools/status.json."""
import json, re, glob, os
root = os.path.dirname(os.path.dirname(os.path.abspath(__file__)))
status = json.load(open(os.path.join(root, "tools", "status.json")))
thms = {}
for f in sorted(glob.glob(os.path.join(root, "lean/Verif/Props/*.lean"))):
    ns = []
    for line in open(f):
        m = re.match(r"namespace (\S+)", line)
        if m: ns.append(m.group(1))
        m = re.match(r"end (\S+)", line)
        if m and ns and ns[-1] == m.group(1): ns.pop()
        m = re.match(r"theorem (C\d+_\S+)", line)
        if m:
            name = m.group(1)
            thms.setdefault(name.split("_")[0], []).append(".".join(ns + [name]))
claims = []
for l in open(os.path.join(root, "properties.jsonl")):
    p = json.loads(l)["id"]
    if p not in thms and p not in status: continue
    s = status.get(p, {"status": "partial", "note": ""})
    claims.append({"property": p, "status": s["status"], "theorems": thms.get(p, []), "note": s["note"]})
json.dump({"claims": claims}, open(os.path.join(root, "MANIFEST.json"), "w"), indent=1)
print(len(claims), "claims,", sum(len(c["theorems"]) for c in claims), "theorems")

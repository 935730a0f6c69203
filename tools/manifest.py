#!/usr/bin/env python3
"""Writes MANIFEST.json from the table below; checks that every named theorem exists and
that every property theorem is claimed."""
import json, os, re, sys
base = os.path.join(os.path.dirname(os.path.abspath(__file__)), "..")
exec(open(os.path.join(base, "tools", "claims.py")).read())
found = {}
for d, _, fs in os.walk(os.path.join(base, "lean", "Verif", "Props")):
    for f in fs:
        for l in open(os.path.join(d, f)):
            m = re.match(r"theorem (C\d\d+_\w+)", l)
            if m:
                found["Ofx.Props." + m.group(1)] = f
by = {}
for n in found:
    by.setdefault(n.split(".")[-1].split("_")[0], []).append(n)
ids = [json.loads(l)["id"] for l in open(os.path.join(base, "properties.jsonl"))]
out = []
for i in ids:
    status, note = CLAIMS.get(i, (None, None))
    ths = sorted(by.get(i, []))
    if status is None:
        if ths:
            print("unclaimed", i, ths)
        continue
    if status != "not_applicable" and not ths:
        print("no theorem for", i)
    out.append({"property": i, "status": status, "theorems": ths, "note": note})
json.dump({"claims": out}, open(os.path.join(base, "MANIFEST.json"), "w"), indent=1)
print(len(out), "claims", len(found), "theorems; missing:", [i for i in ids if i not in CLAIMS])

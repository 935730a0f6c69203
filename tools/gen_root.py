#!/usr/bin/env python3
"""Writes lean/Verif.lean: imports every module under lean/Verif."""
import os
root = os.path.join(os.path.dirname(os.path.abspath(__file__)), "..", "lean")
mods = []
for d, _, fs in os.walk(os.path.join(root, "Verif")):
    for f in fs:
        if f.endswith(".lean"):
            p = os.path.relpath(os.path.join(d, f), root)
            mods.append(p[:-5].replace(os.sep, "."))
with open(os.path.join(root, "Verif.lean"), "w") as o:
    for m in sorted(mods):
        o.write("import %s\n" % m)

#!/usr/bin/env python3
"""Regenerates lean/Verif.lean and lean/Verif/Audit.lean from the tree and MANIFEST.json."""
import json, os
root = os.path.join(os.path.dirname(os.path.abspath(__file__)), "..")
lean = os.path.join(root, "lean")
mods = []
for d, _, fs in os.walk(os.path.join(lean, "Verif")):
    for f in fs:
        if f.endswith(".lean"):
            rel = os.path.relpath(os.path.join(d, f), lean)
            mods.append(rel[:-5].replace(os.sep, "."))
order = {"Model": 0, "Spec": 1, "Lemmas": 2, "Props": 3}
mods.sort(key=lambda m: (order.get(m.split(".")[1], 9), m))
if "Verif.Audit" not in mods:
    mods.append("Verif.Audit")
open(os.path.join(lean, "Verif.lean"), "w").write("".join(f"import {m}\n" for m in mods))
man = json.load(open(os.path.join(root, "MANIFEST.json")))
out = "".join(f"import {m}\n" for m in mods if m.startswith("Verif.Props"))
out += "\n/-!\n# Axioms of every property theorem (generated by tools/sync.py)\n-/\n\nopen Detox\n\n"
for c in man["claims"]:
    for t in c["theorems"]:
        out += f"#print axioms {t}\n"
open(os.path.join(lean, "Verif", "Audit.lean"), "w").write(out)

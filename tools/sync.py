#!/usr/bin/env python3
"""Regenerate lean/Verif.lean and lean/Verif/Audit.lean from the modules present and MANIFEST.json."""
import json, os
root = os.path.dirname(os.path.dirname(os.path.abspath(__file__)))
lean = os.path.join(root, "lean")
man = json.load(open(os.path.join(root, "MANIFEST.json")))
mods = []
for d, _, fs in os.walk(os.path.join(lean, "Verif")):
    for f in fs:
        if f.endswith(".lean"):
            mods.append(os.path.relpath(os.path.join(d, f), lean)[:-5].replace("/", "."))
mods = sorted(m for m in mods if m != "Verif.Audit")
thms = []
for c in man["claims"]:
    for t in c["theorems"]:
        if t not in thms:
            thms.append(t)
with open(os.path.join(lean, "Verif", "Audit.lean"), "w") as f:
    for m in mods:
        if m.startswith("Verif.Props"):
            f.write(f"import {m}\n")
    f.write("\n/-! Axioms each property theorem depends on (at most propext, Classical.choice, Quot.sound). -/\n\n")
    for t in thms:
        f.write(f"#print axioms {t}\n")
with open(os.path.join(lean, "Verif.lean"), "w") as f:
    for m in mods + ["Verif.Audit"]:
        f.write(f"import {m}\n")

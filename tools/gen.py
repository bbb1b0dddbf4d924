#!/usr/bin/env python3
"""Regenerates MANIFEST.json and lean/Verif/Audit.lean from tools/claims.py."""
import json, os, sys
here = os.path.dirname(os.path.abspath(__file__))
sys.path.insert(0, here)
from claims import CLAIMS
root = os.path.dirname(here)
out = []
for prop, status, theorems, note in CLAIMS:
    out.append({"property": prop, "status": status, "theorems": theorems, "note": note})
with open(os.path.join(root, "MANIFEST.json"), "w") as f:
    json.dump({"claims": out}, f, indent=1, ensure_ascii=False)
    f.write("\n")
names = []
for c in out:
    for t in c["theorems"]:
        if t not in names:
            names.append(t)
props = sorted(os.listdir(os.path.join(root, "lean/Verif/Props")))
with open(os.path.join(root, "lean/Verif/Audit.lean"), "w") as f:
    f.write("import Lean.Util.CollectAxioms\nimport Lean.Elab.Command\n")
    for p in props:
        if p.endswith(".lean"):
            f.write(f"import Verif.Props.{p[:-5]}\n")
    f.write('''
/-!
# Axioms of the property theorems

Generated by tools/gen.py from the manifest.  `assert_standard_axioms` fails the build if a theorem
depends on an axiom other than `propext`, `Classical.choice` and `Quot.sound`.
-/

open Lean Elab Command in
elab "assert_standard_axioms " id:ident : command => do
  let name ← liftCoreM <| realizeGlobalConstNoOverloadWithInfo id
  let axs ← collectAxioms name
  for a in axs do
    unless a == ``propext || a == ``Classical.choice || a == ``Quot.sound do
      throwError "{name} depends on {a}"

''')
    for n in names:
        f.write(f"assert_standard_axioms {n}\n")

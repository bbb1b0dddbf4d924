#!/usr/bin/env python3
"""Checks that every /repo file cited in the model exists and that cited lines are within it."""
import glob, os, re, sys
root = os.path.dirname(os.path.dirname(os.path.abspath(__file__)))
bad = 0
files = glob.glob(os.path.join(root, "lean/Verif/**/*.lean"), recursive=True)
for f in files + [os.path.join(root, n) for n in ("DESIGN.md", "properties.jsonl")]:
    s = open(f).read()
    for m in re.finditer(r"((?:lib|tests|benchmarks)/[\w/.\-]+\.(?:h|icc|cc|cpp|hpp))(?::(\d+)(?:-(\d+))?)?", s):
        p = os.path.join("/repo", m.group(1))
        if not os.path.exists(p):
            print(f, "no such file", m.group(0)); bad += 1; continue
        if int(m.group(3) or m.group(2) or 0) > sum(1 for _ in open(p)):
            print(f, "no such line", m.group(0)); bad += 1
sys.exit(1 if bad else 0)

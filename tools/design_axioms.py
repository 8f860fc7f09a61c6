#!/usr/bin/env python3
"""Turn the output of tools/axioms.lean.txt into the axiom section of DESIGN.md (after the last heading)."""
import re, sys, os
root = os.path.dirname(os.path.dirname(os.path.abspath(__file__)))
d = open(root + "/DESIGN.md").read()
mark = "run with `lake env lean`):\n"
d = d[:d.index(mark) + len(mark)] + "\n"
rows = []
for l in open(sys.argv[1]):
    m = re.match(r"(\[.*?\]): (\d+): \[(.*)\]$", l.strip())
    rows.append((int(m.group(2)), m.group(1), m.group(3).replace("Verif.Src.", "").replace("Verif.", "")))
for n, k, v in sorted(rows, reverse=True):
    d += f"* `{k}` ({n}): {v}\n"
open(root + "/DESIGN.md", "w").write(d)

#!/usr/bin/env python3
"""Lists functions of /repo that no comment of the model cites."""
import re, glob, os, sys
root = os.path.join(os.path.dirname(os.path.abspath(__file__)), "..", "lean", "Verif")
cites = {}
for f in glob.glob(root + "/Model/*.lean") + glob.glob(root + "/Heap/*.lean") + glob.glob(root + "/Base/*.lean"):
    s = open(f).read()
    for m in re.finditer(r"([a-z_]+\.go):?\s*((?:\d+(?:[-–]\d+)?)(?:(?:,| and|;)\s*\d+(?:[-–]\d+)?)*)", s):
        for r in re.findall(r"(\d+)(?:[-–](\d+))?", m.group(2)):
            a = int(r[0]); b = int(r[1] or r[0])
            cites.setdefault(m.group(1), []).append((a, b))
n = miss = 0
for f in sorted(glob.glob("/repo/*.go")):
    if f.endswith("_test.go"): continue
    name = os.path.basename(f); lines = open(f).read().split("\n")
    for i, l in enumerate(lines):
        if l.startswith("func "):
            j = i
            while not lines[j].rstrip().endswith("}") or (lines[j] != "}" and j != i): j += 1
            n += 1
            if not any(a <= j + 1 and b >= i + 1 for a, b in cites.get(name, [])):
                miss += 1
                print(f"{name}:{i+1}-{j+1} {l[:100]}")
print(n, "functions,", miss, "not cited")

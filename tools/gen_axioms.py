#!/usr/bin/env python3
"""Writes AXIOMS.md: the axioms each property theorem depends on (needs a finished `lake build`)."""
import glob, os, re, subprocess, tempfile
root = os.path.join(os.path.dirname(os.path.abspath(__file__)), "..")
names = []
for f in sorted(glob.glob(root + "/lean/Verif/Props/*.lean")):
    names += re.findall(r"^theorem (C\d\d_\w+)", open(f).read(), re.M)
names.sort()
with tempfile.NamedTemporaryFile("w", suffix=".lean", delete=False) as t:
    t.write("import Verif\n" + "".join(f"#print axioms Query.{n}\n" for n in names))
out = subprocess.run(["lake", "env", "lean", t.name], cwd=root + "/lean", capture_output=True, text=True).stdout
d = {}
for m in re.finditer(r"'Query\.(C\w+)' (does not depend on any axioms|depends on axioms: \[([^\]]*)\])", out, re.S):
    d[m.group(1)] = re.sub(r"\s+", " ", m.group(3)) if m.group(3) else "none"
with open(root + "/AXIOMS.md", "w") as f:
    f.write("# Axioms of each property theorem\n\n| Theorem | Axioms |\n|---|---|\n")
    for n in names: f.write(f"| `{n}` | {d[n]} |\n")
print(len(names), set(d.values()))

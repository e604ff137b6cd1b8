#!/usr/bin/env python3
"""Regenerates the axiom table of DESIGN.md (run after a full build; needs the built project)."""
import json, os, re, subprocess, tempfile
root = os.path.dirname(os.path.dirname(os.path.abspath(__file__)))
m = json.load(open(os.path.join(root, "MANIFEST.json")))
ts = [t for c in m["claims"] for t in c["theorems"]]
with tempfile.NamedTemporaryFile("w", suffix=".lean", delete=False) as f:
    f.write("import Verif\n" + "".join("#print axioms %s\n" % t for t in ts))
out = subprocess.run(["lake", "env", "lean", f.name], cwd=os.path.join(root, "lean"), capture_output=True, text=True).stdout
out = re.sub(r"\n\s+", " ", out)
groups = {}
for a, b in re.findall(r"'Pdfer\.Props\.([^']*)' (?:depends on axioms: \[([^\]]*)\]|does not depend on any axioms)", out):
    groups.setdefault(b, []).append(a)
n = sum(map(len, groups.values()))
assert n == len(ts), (n, len(ts))
text = "Axioms per theorem (all in namespace `Pdfer.Props`):\n\n"
for k in sorted(groups, key=len):
    text += "* %s (%d): %s\n" % ("`" + k + "`" if k else "none", len(groups[k]), ", ".join(groups[k]))
p = os.path.join(root, "DESIGN.md")
s = open(p).read()
s = s[:s.index("<!-- axioms -->")] + "<!-- axioms -->\n" + text
open(p, "w").write(s)
print({k: len(v) for k, v in groups.items()})

#!/usr/bin/env python3
"""Regenerates MANIFEST.json: theorems are collected by their Cnn_ prefix from lean/Verif/Props."""
import json, re, glob, os
root = os.path.dirname(os.path.dirname(os.path.abspath(__file__)))
status = json.load(open(os.path.join(root, "tools/status.json")))
thms = {}
for f in sorted(glob.glob(os.path.join(root, "lean/Verif/Props/*.lean"))):
    src = open(f).read()
    for m in re.finditer(r"^theorem (C\d+)_(\S+)", src, re.M):
        thms.setdefault(m.group(1), []).append("Pdfer.Props.%s_%s" % (m.group(1), m.group(2)))
ids = [json.loads(l)["id"] for l in open(os.path.join(root, "properties.jsonl")) if l.strip()]
claims = []
for i in ids:
    t = thms.get(i, [])
    if not t:
        continue
    st = status.get(i, {})
    claims.append({"property": i, "status": st.get("status", "proved"), "theorems": t, "note": st.get("note", "")})
json.dump({"claims": claims}, open(os.path.join(root, "MANIFEST.json"), "w"), indent=1, ensure_ascii=False)
print(len(claims), "claims;", "missing:", [i for i in ids if i not in thms])

#!/usr/bin/env python3
"""Writes /verif/MANIFEST.json from the theorem names in lean/Verif/Props and the notes below."""
import json, re, glob, os
root = os.path.dirname(os.path.dirname(os.path.abspath(__file__)))
names = []
for f in sorted(glob.glob(root + "/lean/Verif/Props/*.lean")):
    names += re.findall(r"^theorem (C\d\d\w*)", open(f).read(), re.M)
NOTES = {}
exec(open(root + "/tools/notes.py").read())
claims = []
for line in open(root + "/properties.jsonl"):
    pid = json.loads(line)["id"]
    ths = [n for n in names if pid in re.findall(r"C\d\d", n)]
    if not ths:
        print("no theorem for", pid)
        continue
    partial = any(n.endswith("_partial") for n in ths) and pid in PARTIAL
    claims.append(dict(property=pid, status="partial" if partial else "proved",
                       theorems=["Crevice." + n for n in ths], note=NOTES.get(pid, "")))
json.dump(dict(claims=claims), open(root + "/MANIFEST.json", "w"), indent=1)
print(len(claims), "claims", sum(len(c["theorems"]) for c in claims), "theorems")

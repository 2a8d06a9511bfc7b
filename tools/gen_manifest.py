#!/usr/bin/env python3
"""Regenerate MANIFEST.json: collect theorems named C<number>_* from lean/Verif/Props
and combine them with the status table below."""
import json, re, glob, os
root = os.path.dirname(os.path.dirname(os.path.abspath(__file__)))
ids = [json.loads(l)["id"] for l in open(f"{root}/properties.jsonl") if l.strip()]
thms = {}
for f in sorted(glob.glob(f"{root}/lean/Verif/Props/*.lean")):
    spaces = []
    for m in re.finditer(r"^(namespace|end) (\w+)|^theorem (C\d\d+)_(\w+)", open(f).read(), re.M):
        if m[1] == "namespace":
            spaces.append(m[2])
        elif m[1] == "end" and spaces and spaces[-1] == m[2]:
            spaces.pop()
        elif m[3]:
            thms.setdefault(m[3], []).append(".".join(spaces + [f"{m[3]}_{m[4]}"]))
status = json.load(open(f"{root}/tools/status.json"))
claims = []
for i in ids:
    if i not in thms and i not in status:
        continue
    st = status.get(i, {})
    claims.append({"property": i, "status": st.get("status", "proved"),
                   "theorems": thms.get(i, []), "note": st.get("note", "")})
json.dump({"claims": claims}, open(f"{root}/MANIFEST.json", "w"), indent=1)
print(len(claims), "claims;", sum(len(c["theorems"]) for c in claims), "theorems; missing:",
      [i for i in ids if i not in [c["property"] for c in claims]])

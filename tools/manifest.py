#!/usr/bin/env python3
"""Regenerate MANIFEST.json: all theorems `Cnn_*` (namespace Mimosa) in lean/Verif/Props + notes below."""
import json, re, glob, os
root = os.path.dirname(os.path.dirname(os.path.abspath(__file__)))
thms = {}
for f in sorted(glob.glob(root + "/lean/Verif/Props/*.lean")):
    for m in re.finditer(r"^theorem (C(\d\d)_\S+)", open(f).read(), re.M):
        thms.setdefault("C" + m.group(2), []).append("Mimosa." + m.group(1))
notes = json.load(open(root + "/tools/notes.json"))
claims = []
for line in open(root + "/properties.jsonl"):
    p = json.loads(line); i = p["id"]
    if i not in thms: continue
    st = notes.get(i, {}).get("status", "proved")
    if any(t.endswith("_partial") for t in thms[i]): st = "partial"
    claims.append({"property": i, "status": st, "theorems": thms[i], "note": notes.get(i, {}).get("note", "")})
json.dump({"claims": claims}, open(root + "/MANIFEST.json", "w"), indent=1, ensure_ascii=False)
print(len(claims), sum(len(c["theorems"]) for c in claims))

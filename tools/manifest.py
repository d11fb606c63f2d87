#!/usr/bin/env python3
"""Rebuild MANIFEST.json from the theorem names in lean/Verif/Props and the notes below."""
import json, re, glob, os
here = os.path.dirname(os.path.abspath(__file__))
root = os.path.dirname(here)
notes = json.load(open(os.path.join(here, "notes.json")))
thms = {}
for f in sorted(glob.glob(os.path.join(root, "lean/Verif/Props/*.lean"))):
    for m in re.finditer(r"^theorem\s+((C\d\d+)_\S+)", open(f).read(), re.M):
        thms.setdefault(m.group(2), []).append("Binder." + m.group(1))
claims = []
for l in open(os.path.join(root, "properties.jsonl")):
    i = json.loads(l)["id"]
    ts = thms.get(i, [])
    n = notes.get(i, {})
    if n.get("status"): st = n["status"]
    elif not ts: continue
    elif any(t.endswith("_partial") or t.endswith("_false") for t in ts): st = "partial"
    else: st = "proved"
    claims.append({"property": i, "status": st, "theorems": ts, "note": n.get("note", "")})
json.dump({"claims": claims}, open(os.path.join(root, "MANIFEST.json"), "w"), indent=1)
print(len(claims), {s: sum(c["status"] == s for c in claims) for s in ("proved", "partial", "not_applicable")})
extra = set(thms) - {c["property"] for c in claims}
if extra: print("theorems without property:", extra)

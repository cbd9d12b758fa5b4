#!/usr/bin/env python3
"""Regenerate MANIFEST.json from the theorem names in lean/Verif/Props and tools/notes.json."""
import json, re, glob, os
root = os.path.dirname(os.path.dirname(os.path.abspath(__file__)))
ids = [json.loads(l)["id"] for l in open(f"{root}/properties.jsonl") if l.strip()]
thms = {}
for f in sorted(glob.glob(f"{root}/lean/Verif/Props/*.lean")):
    for m in re.finditer(r"^theorem (C\d+)_(\S+)", open(f).read(), re.M):
        thms.setdefault(m.group(1), []).append(f"PyBSM.{m.group(1)}_{m.group(2)}")
notes = json.load(open(f"{root}/tools/notes.json"))
claims = []
for i in ids:
    t = thms.get(i, [])
    n = notes.get(i, {})
    status = n.get("status") or ("proved" if t else "partial")
    if any(x.endswith("_partial") for x in t):
        status = "partial"
    if not t and status == "proved":
        status = "partial"
    claims.append({"property": i, "status": status, "theorems": t,
                   "note": n.get("note", "" if t else "modelled, not yet proved")})
json.dump({"claims": claims}, open(f"{root}/MANIFEST.json", "w"), indent=1)
print({s: sum(c["status"] == s for c in claims) for s in ("proved", "partial", "not_applicable")})

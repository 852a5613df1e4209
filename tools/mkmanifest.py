#!/usr/bin/env python3
"""Rebuild MANIFEST.json from the theorem names in lean/Verif/Props. STATUS gives notes and overrides."""
import json, re, glob, collections, os
root = os.path.dirname(os.path.dirname(os.path.abspath(__file__)))
props = [json.loads(l)["id"] for l in open(f"{root}/properties.jsonl")]
thms = collections.defaultdict(list)
for f in sorted(glob.glob(f"{root}/lean/Verif/Props/*.lean")):
    for m in re.finditer(r"^theorem (C(\d\d+)_\w+)", open(f).read(), re.M):
        thms["C" + m.group(2)].append("Fundu.Props." + m.group(1))
st = json.load(open(f"{root}/tools/status.json"))
claims = []
for p in props:
    s = st.get(p, {})
    ts = thms[p] + s.get("also", [])
    status = s.get("status", "proved" if ts and not any(t.endswith("_partial") for t in ts) else "partial")
    if not ts and status == "proved": status = "partial"
    claims.append({"property": p, "status": status, "theorems": ts,
                   "note": s.get("note", "" if ts else "not yet proved")})
json.dump({"claims": claims}, open(f"{root}/MANIFEST.json", "w"), indent=1, ensure_ascii=False)
for c in claims: print(c["property"], c["status"], len(c["theorems"]))

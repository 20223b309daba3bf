#!/usr/bin/env python3
"""Builds MANIFEST.json: collects theorems named cNN_... from lean/Verif and merges them with the notes below.

Status: 'partial' if listed in PARTIAL, 'not_applicable' if listed in NA, else 'proved' when a theorem exists."""
import json, os, re, glob
here = os.path.dirname(os.path.abspath(__file__)); root = os.path.join(here, "..")
NOTES, PARTIAL, NA = {}, set(), {}
exec(open(os.path.join(here, "notes.py")).read())
thms = {}
for f in sorted(glob.glob(os.path.join(root, "lean/Verif/**/*.lean"), recursive=True)):
    txt = open(f).read()
    for m in re.finditer(r"^theorem (c(\d\d+)_\w+)", txt, re.M):
        thms.setdefault("C" + m.group(2), []).append("FSat." + m.group(1))
claims = []
for line in open(os.path.join(root, "properties.jsonl")):
    i = json.loads(line)["id"]
    t = thms.get(i, [])
    if i in NA: st = "not_applicable"
    elif i in PARTIAL or not t: st = "partial"
    else: st = "proved"
    note = NOTES.get(i, NA.get(i, "" if t else "no theorem yet"))
    claims.append(dict(property=i, status=st, theorems=t, note=note))
json.dump({"claims": claims}, open(os.path.join(root, "MANIFEST.json"), "w"), indent=1)
print({s: sum(c["status"] == s for c in claims) for s in ("proved", "partial", "not_applicable")})
print([c["property"] for c in claims if not c["theorems"] and c["status"] != "not_applicable"])

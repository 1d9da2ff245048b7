#!/usr/bin/env python3
"""Writes MANIFEST.json from the table below; refuses names that no Lean file declares."""
import json, os, re, sys

ROOT = os.path.dirname(os.path.dirname(os.path.abspath(__file__)))
CLAIMS = []


def claim(prop, status, theorems, note):
    CLAIMS.append({"property": prop, "status": status, "theorems": theorems.split(), "note": note})


exec(open(os.path.join(ROOT, "tools", "claims.py")).read())

names = set()
for d, _, fs in os.walk(os.path.join(ROOT, "lean", "Verif")):
    for f in fs:
        if f.endswith(".lean"):
            names |= set(re.findall(r"^(?:protected )?theorem (\S+)", open(os.path.join(d, f)).read(), re.M))
props = [json.loads(l)["id"] for l in open(os.path.join(ROOT, "properties.jsonl"))]
bad = [(c["property"], t) for c in CLAIMS for t in c["theorems"] if t not in names]
bad += [(c["property"], "unknown property") for c in CLAIMS if c["property"] not in props]
if bad:
    sys.exit("bad: %s" % bad)
CLAIMS.sort(key=lambda c: c["property"])
json.dump({"claims": CLAIMS}, open(os.path.join(ROOT, "MANIFEST.json"), "w"), indent=1)
print(len(CLAIMS), "claims; missing:", [p for p in props if p not in {c["property"] for c in CLAIMS}])

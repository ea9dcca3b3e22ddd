#!/usr/bin/env python3
"""claim.py ID STATUS THEOREM[,THEOREM...] NOTE  - insert or replace one claim in MANIFEST.json"""
import json, sys, pathlib
p = pathlib.Path(__file__).resolve().parent.parent / "MANIFEST.json"
m = json.loads(p.read_text())
pid, status, thms, note = sys.argv[1:5]
m["claims"] = [c for c in m["claims"] if c["property"] != pid]
m["claims"].append({"property": pid, "status": status, "theorems": [t for t in thms.split(",") if t], "note": note})
m["claims"].sort(key=lambda c: c["property"])
p.write_text(json.dumps(m, indent=1) + "\n")

#!/usr/bin/env python3
"""axioms.py: write AXIOMS.md, the axioms every theorem named in MANIFEST.json depends on (run after `lake build`)."""
import json, subprocess, pathlib, re
root = pathlib.Path(__file__).resolve().parent.parent
names = []
for c in json.load(open(root/"MANIFEST.json"))["claims"]:
    names += [(c["property"], t) for t in c["theorems"]]
src = "import Verif\n" + "".join(f"#print axioms {t}\n" for _, t in names)
tmp = pathlib.Path("/tmp/axioms_check.lean"); tmp.write_text(src)
out = subprocess.run(["lake","env","lean",str(tmp)],cwd=root/"lean",capture_output=True,text=True).stdout
ax = {}
for m in re.finditer(r"'([^']+)' (?:depends on axioms: \[([^\]]*)\]|does not depend on any axioms)", out):
    ax[m.group(1)] = ", ".join(x.strip() for x in (m.group(2) or "").split(",")) or "none"
lines = ["# Axioms of the theorems in MANIFEST.json", "", "Generated by `tools/axioms.py` from `#print axioms`.", "", "| property | theorem | axioms |", "|---|---|---|"]
for p, t in names: lines.append(f"| {p} | `{t.removeprefix('SilKit.Props.')}` | {ax.get(t,'NOT FOUND')} |")
(root/"AXIOMS.md").write_text("\n".join(lines)+"\n")
print(len(names), "theorems;", sorted(set(ax.values())), [t for _,t in names if t not in ax])

#!/usr/bin/env python3
"""Append a property: reads {"prop": {...}, "note": "...", "row": "...", "module": "Verif.Props.X"}."""
import json
import re
import sys

d = json.load(sys.stdin)
p = d["prop"]
root = "/verif/"
lines = open(root + "properties.jsonl").read().splitlines()
lines = [l for l in lines if json.loads(l)["id"] != p["id"]] + [json.dumps(p)]
open(root + "properties.jsonl", "w").write("\n".join(lines) + "\n")
n = json.load(open(root + "tools/notes.json"))
n[p["id"]] = {"note": d["note"]}
json.dump(n, open(root + "tools/notes.json", "w"), indent=1)
s = open(root + "DESIGN.md").read().split("\n")
if not any(l.startswith("| %s |" % p["id"]) for l in s):
    i = max(k for k, l in enumerate(s) if re.match(r"\| C\d+ ", l))
    s.insert(i + 1, d["row"])
    open(root + "DESIGN.md", "w").write("\n".join(s))
v = open(root + "lean/Verif.lean").read()
if "import " + d["module"] not in v:
    open(root + "lean/Verif.lean", "w").write(v.rstrip("\n") + "\nimport " + d["module"] + "\n")

#!/usr/bin/env python3
"""Write MANIFEST.json from the property theorems in lean/Verif/Props.

A theorem `Cnn_...` belongs to property `Cnn`; its full name follows from the open namespaces.  Notes and statuses that do not follow from the
names are kept in tools/notes.json.
"""
import glob, json, os, re
root = os.path.dirname(os.path.dirname(os.path.abspath(__file__)))
ids = [json.loads(l)["id"] for l in open(f"{root}/properties.jsonl") if l.strip()]
notes = json.load(open(f"{root}/tools/notes.json"))
thms = {i: [] for i in ids}
for f in sorted(glob.glob(f"{root}/lean/Verif/Props/*.lean")):
    space = []
    for line in open(f):
        if m := re.match(r"namespace (\S+)", line):
            space.append(m.group(1))
        elif m := re.match(r"end (\S+)", line):
            if space and space[-1] == m.group(1):
                space.pop()
        elif m := re.match(r"theorem ((C\d+)_[^\s:({\[]+)", line):
            thms[m.group(2)].append(".".join(space + [m.group(1)]))
claims = []
for i in ids:
    n = notes.get(i, {})
    if not thms[i]:
        continue
    part = any(t.endswith("_partial") for t in thms[i])
    status = n.get("status", "partial" if part else "proved")
    claims.append({"property": i, "status": status, "theorems": thms[i], "note": n.get("note", "")})
json.dump({"claims": claims}, open(f"{root}/MANIFEST.json", "w"), indent=1, ensure_ascii=False)
print({s: sum(c["status"] == s for c in claims) for s in ("proved", "partial", "not_applicable")},
      "missing:", [i for i in ids if not thms[i]])

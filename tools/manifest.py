#!/usr/bin/env python3
"""Write MANIFEST.json: theorems are found by their name prefix Cnn_ in lean/Verif/Props."""
import json, re, glob, os
root = os.path.dirname(os.path.dirname(os.path.abspath(__file__)))
ids = [json.loads(l)["id"] for l in open(root + "/properties.jsonl") if l.strip()]
found = {}
for f in sorted(glob.glob(root + "/lean/Verif/Props/*.lean")):
    text = open(f).read()
    open_ = []
    for line in text.splitlines():
        if m := re.match(r"namespace (\S+)", line):
            open_.append(m.group(1))
        elif (m := re.match(r"end (\S+)", line)) and open_ and open_[-1] == m.group(1):
            open_.pop()
        elif m := re.match(r"theorem (C\d\d+)_(\w+)", line):
            found.setdefault(m.group(1), []).append(".".join(open_) + ".%s_%s" % m.groups())
notes = json.load(open(root + "/tools/notes.json")) if os.path.exists(root + "/tools/notes.json") else {}
claims = []
for i in ids:
    th = found.get(i, [])
    if not th:
        status = "partial"
        note = notes.get(i, {}).get("note", "not proved yet")
    else:
        status = notes.get(i, {}).get("status", "partial" if any(t.endswith("_partial") for t in th) else "proved")
        note = notes.get(i, {}).get("note", "")
    claims.append({"property": i, "status": status, "theorems": th, "note": note})
json.dump({"claims": claims}, open(root + "/MANIFEST.json", "w"), indent=1, ensure_ascii=False)
print(sum(1 for c in claims if c["status"] == "proved"), "proved of", len(claims))

#!/usr/bin/env python3
"""Regenerate MANIFEST.json from the theorem names in lean/Verif/Props (Cnn_... names) and notes.json."""
import glob, json, os, re
root = os.path.dirname(os.path.dirname(os.path.abspath(__file__)))
ids = [json.loads(l)["id"] for l in open(f"{root}/properties.jsonl") if l.strip()]
notes = json.load(open(f"{root}/tools/notes.json"))
th = {i: [] for i in ids}
for f in sorted(glob.glob(f"{root}/lean/Verif/Props/*.lean")):
    src = open(f).read()
    src = re.sub(r"/-.*?-/", "", src, flags=re.S)
    for m in re.finditer(r"^theorem ((C\d+)_\w+)", src, re.M):
        th[m.group(2)].append("AS.Props." + m.group(1))
claims = []
for i in ids:
    n = notes.get(i, {})
    status = n.get("status") or ("proved" if th[i] else "partial")
    if not th[i] and "status" not in n:
        n = {"note": "not yet proved"}
    claims.append({"property": i, "status": status, "theorems": th[i], "note": n.get("note", "")})
json.dump({"claims": claims}, open(f"{root}/MANIFEST.json", "w"), indent=1, ensure_ascii=False)
print({i: len(t) for i, t in th.items()})

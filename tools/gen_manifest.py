#!/usr/bin/env python3
"""Writes MANIFEST.json from the table below and the theorem names found in lean/Verif/Props."""
import json, re, pathlib

root = pathlib.Path(__file__).resolve().parent.parent
STATUS = json.loads((root / "tools" / "status.json").read_text())
found = {}
for f in sorted((root / "lean" / "Verif" / "Props").glob("*.lean")):
    text = f.read_text()
    for m in re.finditer(r"^theorem ((C\d\d)\w*)", text, re.M):
        found.setdefault(m.group(2), []).append("Fasttld.Props." + m.group(1))
claims = []
for cid in sorted(found):
    st = STATUS.get(cid, {"status": "proved", "note": ""})
    claims.append({"property": cid, "status": st["status"], "theorems": found[cid], "note": st["note"]})
(root / "MANIFEST.json").write_text(json.dumps({"claims": claims}, indent=1, ensure_ascii=False) + "\n")
print(len(claims), "claims;", sum(len(c["theorems"]) for c in claims), "theorems")

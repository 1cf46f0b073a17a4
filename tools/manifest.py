#!/usr/bin/env python3
"""Regenerates MANIFEST.json and lean/Verif/Axioms.lean from the theorem names in lean/Verif/Props.

A property is `partial` when status.json says so; `status.json` also carries the notes."""
import json, re, pathlib
root = pathlib.Path(__file__).resolve().parent.parent
thms = {}
mods = []
for f in sorted((root / "lean/Verif/Props").glob("*.lean")):
    mods.append("Verif.Props." + f.stem)
    for m in re.finditer(r"^theorem (C(\d\d)_\w+)", f.read_text(), re.M):
        thms.setdefault("C" + m.group(2), []).append("Verif.Props." + m.group(1))
status = json.loads((root / "tools/status.json").read_text())
claims = []
for line in (root / "properties.jsonl").read_text().splitlines():
    pid = json.loads(line)["id"]
    st = status.get(pid, {})
    if pid in thms:
        claims.append({"property": pid, "status": st.get("status", "proved"), "theorems": thms[pid], "note": st.get("note", "")})
(root / "MANIFEST.json").write_text(json.dumps({"claims": claims}, indent=1) + "\n")
out = ["".join("import %s\n" % m for m in mods), "/-! # Axioms of every claimed theorem (printed at build time) -/\n"]
for pid in sorted(thms):
    for t in thms[pid]:
        out.append("#print axioms " + t)
(root / "lean/Verif/Axioms.lean").write_text("\n".join(out) + "\n")
print({c["property"]: len(c["theorems"]) for c in claims})

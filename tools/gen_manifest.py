#!/usr/bin/env python3
"""Write MANIFEST.json and lean/Verif/Axioms.lean from the theorems named Cxx_... under lean/Verif/Props."""
import json, re, pathlib
root = pathlib.Path(__file__).resolve().parent.parent
status = json.loads((root / "tools/status.json").read_text())
thms = {}
mods = []
for f in sorted((root / "lean/Verif/Props").glob("*.lean")):
    mods.append("Verif.Props." + f.stem)
    for m in re.finditer(r"^theorem (C(\d\d+)_\S+)", f.read_text(), re.M):
        thms.setdefault("C" + m.group(2), []).append("Verif.Props." + m.group(1))
props = [json.loads(l)["id"] for l in (root / "properties.jsonl").read_text().splitlines() if l.strip()]
claims = []
for p in props:
    st = status.get(p)
    ts = thms.get(p, [])
    if st is None and not ts:
        continue
    st = st or {}
    default = "partial" if any(t.endswith("_partial") for t in ts) else "proved"
    claims.append({"property": p, "status": st.get("status", default), "theorems": ts, "note": st.get("note", "")})
(root / "MANIFEST.json").write_text(json.dumps({"claims": claims}, indent=1) + "\n")
ax = ["-- Generated by tools/gen_manifest.py: prints the axioms of every property theorem at build time."]
ax += ["import " + m for m in mods] + [""]
ax += ["#print axioms " + t for p in props for t in thms.get(p, [])]
(root / "lean/Verif/Axioms.lean").write_text("\n".join(ax) + "\n")
missing = [p for p in props if p not in {c["property"] for c in claims}]
print(len(claims), "claims;", sum(len(c["theorems"]) for c in claims), "theorems; without theorems:", " ".join(missing))

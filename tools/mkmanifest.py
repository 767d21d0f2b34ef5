#!/usr/bin/env python3
"""Regenerate MANIFEST.json from the theorem names in lean/Verif/Props and tools/notes.json.

A property is `partial` when one of its theorems is named `_partial`, otherwise `proved`."""
import json, pathlib, re

root = pathlib.Path(__file__).resolve().parent.parent
notes = json.loads((root / "tools/notes.json").read_text())
props = [json.loads(l)["id"] for l in (root / "properties.jsonl").read_text().splitlines() if l]
thms = {p: [] for p in props}
for f in sorted((root / "lean/Verif/Props").glob("*.lean")):
    ns = []
    for line in f.read_text().splitlines():
        if m := re.match(r"namespace (\S+)", line):
            ns.append(m[1])
        elif m := re.match(r"end (\S+)", line):
            if ns and ns[-1] == m[1]:
                ns.pop()
        elif m := re.match(r"(?:protected )?theorem (C\d\d+)_(\S+)", line):
            thms[m[1]].append(".".join(ns + [m[1] + "_" + m[2]]))
claims = []
for p in props:
    if not thms[p]:
        print("no theorem yet:", p)
        continue
    status = "partial" if any(t.endswith("_partial") for t in thms[p]) else "proved"
    claims.append({"property": p, "status": status, "theorems": thms[p], "note": notes.get(p, "")})
(root / "MANIFEST.json").write_text(json.dumps({"claims": claims}, indent=1, ensure_ascii=False) + "\n")

#!/usr/bin/env python3
"""Write /verif/MANIFEST.json from the property theorems in lean/Verif/Props.

A property theorem is named C<nn>_<what it says>. A property one of whose theorems ends in _partial is partial; the
notes below say what is missing.
"""
import json, pathlib, re

root = pathlib.Path(__file__).resolve().parent.parent
notes = json.loads((root / "tools" / "notes.json").read_text())
claims = {}
for f in sorted((root / "lean" / "Verif" / "Props").glob("*.lean")):
    ns = []
    for line in f.read_text().splitlines():
        m = re.match(r"namespace (\S+)", line)
        if m:
            ns.append(m.group(1))
        m = re.match(r"end (\S+)", line)
        if m and ns and ns[-1] == m.group(1):
            ns.pop()
        m = re.match(r"theorem (C\d\d+)_(\w+)", line)
        if m:
            name = ".".join(ns + [m.group(1) + "_" + m.group(2)])
            claims.setdefault(m.group(1), []).append(name)
out = []
for line in (root / "properties.jsonl").read_text().splitlines():
    if not line.strip():
        continue
    pid = json.loads(line)["id"]
    names = claims.pop(pid, [])
    if not names:
        print("no theorem for", pid)
        continue
    status = "partial" if any(n.endswith("_partial") for n in names) else "proved"
    out.append({"property": pid, "status": status, "theorems": names, "note": notes.get(pid, "")})
    if status == "partial" and pid not in notes:
        print("no note for partial", pid)
for pid in claims:
    print("theorems without property", pid)
(root / "MANIFEST.json").write_text(json.dumps({"claims": out}, indent=1, ensure_ascii=False) + "\n")
print(len(out), "claims,", sum(len(c["theorems"]) for c in out), "theorems")

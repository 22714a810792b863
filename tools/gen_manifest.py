#!/usr/bin/env python3
"""Writes MANIFEST.json from the table below; checks that every theorem exists."""
import json, re, pathlib
root = pathlib.Path(__file__).resolve().parent.parent
T = {}
def c(pid, status, thms, note=""):
    T[pid] = dict(property=pid, status=status, theorems=["Verif." + t for t in thms], note=note)
exec((root / "tools" / "claims.py").read_text())
src = "\n".join(p.read_text() for p in (root / "lean/Verif").rglob("*.lean"))
names = set(re.findall(r"^(?:@\[[^\]]*\] *)?theorem\s+([^\s({\[:]+)", src, re.M))
ids = [json.loads(l)["id"] for l in (root / "properties.jsonl").read_text().splitlines() if l.strip()]
for pid, d in T.items():
    assert pid in ids, pid
    for t in d["theorems"]:
        if t.split(".")[-1] not in {n.split(".")[-1] for n in names}: print("missing theorem", pid, t)
for i in ids:
    if i not in T: print("no claim for", i)
(root / "MANIFEST.json").write_text(json.dumps({"claims": [T[i] for i in ids if i in T]}, indent=1) + "\n")

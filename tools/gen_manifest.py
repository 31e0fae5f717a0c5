#!/usr/bin/env python3
"""Writes MANIFEST.json from the list below and checks that every theorem named exists."""
import json, re, pathlib, sys
root = pathlib.Path(__file__).resolve().parent.parent
claims = []
def c(prop, status, note, *thms):
    claims.append(dict(property=prop, status=status, theorems=list(thms), note=note))

exec((root/"tools/claims.py").read_text())

names = set()
for f in (root/"lean/Verif").rglob("*.lean"):
    ns = []
    for line in f.read_text().splitlines():
        m = re.match(r"namespace (\S+)", line)
        if m: ns.append(m.group(1))
        m = re.match(r"end (\S+)", line)
        if m and ns and ns[-1] == m.group(1): ns.pop()
        m = re.match(r"(?:private |protected )?theorem (\S+)", line)
        if m: names.add(".".join(ns + [m.group(1)]))
bad = [t for cl in claims for t in cl["theorems"] if t not in names]
if bad: print("UNKNOWN THEOREMS", bad); sys.exit(1)
props = [json.loads(l)["id"] for l in (root/"properties.jsonl").read_text().splitlines() if l.strip()]
done = {cl["property"] for cl in claims}
(root/"MANIFEST.json").write_text(json.dumps({"claims": claims}, indent=1) + "\n")
print("claims", len(claims), "missing", [q for q in props if q not in done])

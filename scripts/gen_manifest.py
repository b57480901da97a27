#!/usr/bin/env python3
"""Writes /verif/MANIFEST.json from the theorem names `Cxx_...` found in lean/Verif/Props.

A property is `partial` if one of its theorems carries the suffix `_partial`, else `proved`.
Notes are kept in scripts/notes.json.
"""
import glob, json, os, re
ROOT = os.path.join(os.path.dirname(os.path.abspath(__file__)), "..")
notes = json.load(open(os.path.join(ROOT, "scripts", "notes.json")))
found = {}
for f in sorted(glob.glob(os.path.join(ROOT, "lean/Verif/Props/**/*.lean"), recursive=True)):
    stack = []
    for line in open(f):
        m = re.match(r"namespace\s+(\S+)", line)
        if m: stack.append(m.group(1))
        m = re.match(r"end\s+(\S+)\s*$", line)
        if m and stack and stack[-1] == m.group(1): stack.pop()
        m = re.match(r"theorem\s+((C\d+)_\S+)", line)
        if m: found.setdefault(m.group(2), []).append(".".join(stack + [m.group(1)]))
claims = []
for l in open(os.path.join(ROOT, "properties.jsonl")):
    pid = json.loads(l)["id"]
    if pid not in found: continue
    ths = found[pid]
    st = "partial" if any(t.endswith("_partial") for t in ths) else "proved"
    claims.append(dict(property=pid, status=st, theorems=ths, note=notes.get(pid, "")))
with open(os.path.join(ROOT, "MANIFEST.json"), "w") as o:
    o.write('{"claims": [\n' + ",\n".join(" " + json.dumps(c, ensure_ascii=False) for c in claims) + "\n]}\n")
print(len(claims), "claims;", [c["property"] for c in claims if not c["note"]], "without note")

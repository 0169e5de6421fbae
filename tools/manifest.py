#!/usr/bin/env python3
"""Writes ../MANIFEST.json from the table below and the theorem names in ../lean/Verif/Props:
theorems are collected by their Cxx_ prefix; the status is 'partial' where a _partial theorem or an
explicit entry says so."""
import json, os, re, sys
here = os.path.dirname(os.path.abspath(__file__))
root = os.path.dirname(here)
ids = [json.loads(l)["id"] for l in open(os.path.join(root, "properties.jsonl")) if l.strip()]
thms = {}
props = os.path.join(root, "lean", "Verif", "Props")
for d, _, fs in sorted(os.walk(props)):
    for f in sorted(fs):
        ns = []
        for line in open(os.path.join(d, f)):
            m = re.match(r"namespace (\S+)", line)
            if m: ns.append(m.group(1))
            m = re.match(r"end (\S+)", line)
            if m and ns and ns[-1] == m.group(1): ns.pop()
            m = re.match(r"theorem ((C\d+)_\S+)", line)
            if m: thms.setdefault(m.group(2), []).append(".".join(ns + [m.group(1)]))
notes = json.load(open(os.path.join(here, "notes.json")))
claims = []
for i in ids:
    t = thms.get(i, [])
    n = notes.get(i, "")
    if not t:
        continue
    partial = any(x.endswith("_partial") or "_refuted" in x for x in t)
    claims.append({"property": i, "status": "partial" if partial else "proved", "theorems": t, "note": n})
for i in thms:
    if i not in ids: sys.exit("theorem for unknown property " + i)
json.dump({"claims": claims}, open(os.path.join(root, "MANIFEST.json"), "w"), indent=1, ensure_ascii=False)
print(len(claims), "claims of", len(ids), "properties; missing:", [i for i in ids if i not in thms], "partial:", [c["property"] for c in claims if c["status"]=="partial"])

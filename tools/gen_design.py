#!/usr/bin/env python3
"""Section 5 of DESIGN.md: the theorems of each property with their docstrings."""
import re, json, glob, os
root = os.path.dirname(os.path.dirname(os.path.abspath(__file__)))
doc = {}
where = {}
for f in sorted(glob.glob(root + "/lean/Verif/Props/*.lean")):
    s = open(f).read()
    for m in re.finditer(r"(?:/--((?:(?!-/).)*?)-/\s*(?:set_option[^\n]*\n)?)?theorem (C\d\d+_\w+)", s, re.S):
        doc[m.group(2)] = " ".join((m.group(1) or "").split())
        where[m.group(2)] = os.path.basename(f)
props = [json.loads(l) for l in open(root + "/properties.jsonl")]
man = {c["property"]: c for c in json.load(open(root + "/MANIFEST.json"))["claims"]}
out = []
for p in props:
    c = man.get(p["id"])
    out.append(f"### {p['id']} {p['title']}\n")
    for t in (c["theorems"] if c else []):
        n = t.split(".")[-1]
        d = re.sub(r"^\*\*C\d\d+[^*]*\*\*\.?\s*,?", "", doc.get(n, "")).strip()
        out.append(f"* `{n}` ({where.get(n)}). {d}")
    out.append("")
s = open(root + "/DESIGN.md").read()
mark = "<!-- generated by tools/gen_design.py -->"
s = s[:s.index(mark)] + mark + "\n\n" + "\n".join(out)
open(root + "/DESIGN.md", "w").write(s)

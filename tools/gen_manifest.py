#!/usr/bin/env python3
"""Generate MANIFEST.json from the theorem names: C<id>_... in lean/Verif/Props."""
import re, json, glob, os
root = os.path.dirname(os.path.dirname(os.path.abspath(__file__)))
ids = [json.loads(l)["id"] for l in open(root + "/properties.jsonl")]
notes = json.load(open(root + "/tools/notes.json")) if os.path.exists(root + "/tools/notes.json") else {}
# notes: the row of DESIGN.md about the property (what is modelled; how it is proved)
rows = {}
LEG = {"R": "exact real arithmetic", "G": "any arithmetic (operations uninterpreted)"}
for l in open(root + "/DESIGN.md"):
    m = re.match(r"\| (C\d[^|]*)\|(.*)\|\s*$", l)
    if not m: continue
    cells = [c.strip() for c in m.group(2).split("|")]
    cells[0] = ", ".join(LEG.get(x.strip(), x.strip()) for x in cells[0].split(",")) if re.fullmatch(r"[RG](, ?[RG])*", cells[0]) else cells[0]
    for part in m.group(1).split(","):
        a = [int(x) for x in re.findall(r"C?(\d+)", part)]
        for i in range(a[0], a[-1] + 1):
            rows.setdefault("C%02d" % i, []).append("Modelled: %s. Proof: %s." % (cells[0].rstrip("."), " | ".join(cells[1:]).rstrip(".")))
th = {}
for f in sorted(glob.glob(root + "/lean/Verif/Props/*.lean")):
    ns = []
    for m in re.finditer(r"^(?:namespace (\w+)|end (\w+)|theorem (C(\d\d+)_\w+))", open(f).read(), re.M):
        if m.group(1): ns.append(m.group(1))
        elif m.group(2):
            if ns and ns[-1] == m.group(2): ns.pop()
        else: th.setdefault("C" + m.group(4), []).append(".".join(ns + [m.group(3)]))
claims = []
for i in ids:
    t = th.get(i, [])
    if not t: 
        print("no theorem yet:", i); continue
    n = notes.get(i, {})
    claims.append({"property": i, "status": n.get("status", "partial" if all(x.endswith("_partial") for x in t) else "proved"), "theorems": t, "note": n.get("note", " ".join(rows.get(i, [])))})
json.dump({"claims": claims}, open(root + "/MANIFEST.json", "w"), indent=1)

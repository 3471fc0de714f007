#!/usr/bin/env python3
"""Writes DESIGN.md from tools/design_head.md, tools/design_plan.txt, properties.jsonl and MANIFEST.json."""
import json, os
root = os.path.join(os.path.dirname(os.path.abspath(__file__)), "..")
head = open(os.path.join(root, "tools/design_head.md")).read()
plan = {}
for l in open(os.path.join(root, "tools/design_plan.txt")):
    if l.strip():
        k, v = l.strip().split(" ", 1)
        plan[k] = v
man = {c["property"]: c for c in json.load(open(os.path.join(root, "MANIFEST.json")))["claims"]}
out = [head.rstrip(), "", "## 4. Per property: what is modelled, how it is proved", ""]
for l in open(os.path.join(root, "properties.jsonl")):
    p = json.loads(l)
    c = man[p["id"]]
    th = ", ".join("`%s`" % t.replace("Verif.", "") for t in c["theorems"])
    out.append("* **%s** %s (%s) — %s Theorems: %s." % (p["id"], p["title"], c["status"], plan[p["id"]], th))
open(os.path.join(root, "DESIGN.md"), "w").write("\n".join(out) + "\n")

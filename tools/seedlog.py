#!/usr/bin/env python3
"""Convert the seeding harness results to seeded/LOG.jsonl (one line per wrong program)."""
import json, sys, os
src = sys.argv[1]
tight = {}
tf = os.path.join(os.path.dirname(__file__), "..", "seeded", "tightened.json")
if os.path.exists(tf):
    tight = json.load(open(tf))
out = []
for line in open(src):
    r = json.loads(line)
    if r.get("invalid"):
        continue
    m = r["mut"]
    edits = m.get("edits", [])
    out.append({
        "id": r["id"],
        "definition": m.get("definition"),
        "file": m.get("file"),
        "edit": m.get("what"),
        "diff": edits,
        "claim_broken": m.get("claim"),
        "equivalent": (m.get("expect") == []) and r["id"] not in tight,
        "theorems_failed": r.get("bad", []),
        "theorems_tightened": tight.get(r["id"], []),
    })
with open(os.path.join(os.path.dirname(__file__), "..", "seeded", "LOG.jsonl"), "w") as f:
    for o in out:
        f.write(json.dumps(o) + "\n")
print(len(out))

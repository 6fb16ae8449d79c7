#!/usr/bin/env python3
"""Replace fields of one property in properties.jsonl: setprop.py C22 statement "..." [field value ...]"""
import json, sys, os
p = os.path.join(os.path.dirname(os.path.dirname(os.path.abspath(__file__))), "properties.jsonl")
rows = [json.loads(l) for l in open(p) if l.strip()]
pid, kv = sys.argv[1], sys.argv[2:]
hit = [r for r in rows if r["id"] == pid]
if not hit:
    hit = [{"id": pid}]
    rows += hit
for k, v in zip(kv[::2], kv[1::2]):
    hit[0][k] = json.loads(v) if k == "anchors" else v
with open(p, "w") as f:
    for r in rows:
        f.write(json.dumps(r) + "\n")

#!/usr/bin/env python3
"""Append the results of seed.py runs to seeded/LOG.jsonl.

Usage: log_seed.py OUT.jsonl [...]
Entries whose run broke down ("error") are skipped. An entry may carry "tightened" (a list of theorem names).
"""
import json, os, sys
LOG = os.path.join(os.path.dirname(os.path.abspath(__file__)), "..", "seeded", "LOG.jsonl")
seen = set()
if os.path.exists(LOG):
    seen = {l.strip() for l in open(LOG)}
with open(LOG, "a") as f:
    for p in sys.argv[1:]:
        for l in open(p):
            d = json.loads(l)
            if "error" in d:
                print("skipped", d["definition"], d["error"]); continue
            o = {"definition": d["file"].replace("Verif/", "lean/Verif/") + ": " + d["definition"],
                 "edit": {"from": d["old"].strip(), "to": d["new"].strip()},
                 "claim": d["claim"], "failed": d["failed"], "tightened": d.get("tightened", [])}
            s = json.dumps(o)
            if s not in seen:
                f.write(s + "\n"); seen.add(s)

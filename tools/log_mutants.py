#!/usr/bin/env python3
"""Append the results of a mutation batch (JSON lines written by the scratch harness) to seeded/LOG.jsonl."""
import json, sys
tight = json.loads(sys.argv[2]) if len(sys.argv) > 2 else {}
with open("/verif/seeded/LOG.jsonl", "a") as out:
    for line in open(sys.argv[1]):
        r = json.loads(line)
        out.write(json.dumps({
            "definition": r["definition"], "edit": r["edit"], "claim_broken": r["claim"],
            "theorems_failed": r["failed"], "modules_blocked": r["blocked"],
            "survived": r["ok"], "theorems_tightened": tight.get(r["edit"], []),
        }) + "\n")

#!/usr/bin/env python3
"""Append the outcome of a run of mutate.py to seeded/LOG.jsonl.

usage: append_log.py MUTANTS.json OUT.jsonl [NOTES.json]     NOTES: {mutant id: {"tightened": [...], "note": "..."}}
"""
import json, sys
ms = {m["id"]: m for m in json.load(open(sys.argv[1]))}
notes = json.load(open(sys.argv[3])) if len(sys.argv) > 3 else {}
with open("/verif/seeded/LOG.jsonl", "a") as out:
    for l in open(sys.argv[2]):
        r = json.loads(l); m = ms[r["id"]]; n = notes.get(r["id"], {})
        x = dict(definition=f'{m["definition"]} ({m["file"]})', edit=m["edit"], claim=m["claim"], property=m["property"],
                 failed=r["failed"], survived_for_property=r["prop_survived"], tightened=n.get("tightened", []))
        if r.get("broken"): x["broken_declarations"] = r["broken"]   # where the proofs stop; the rest of "failed" depends on these
        if "note" in n: x["note"] = n["note"]
        out.write(json.dumps(x) + "\n")

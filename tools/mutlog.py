#!/usr/bin/env python3
"""usage: mutlog.py RESULTS.jsonl [TIGHTENED.json] >> seeded/LOG.jsonl

Turns the output of mutate.py into log lines.  TIGHTENED.json maps the index of a mutation that every theorem survived to
the theorems added or strengthened because of it.  When an error is in a helper lemma, the property theorems of the
modules that need it are not rebuilt; those modules are listed under "not_rebuilt".
"""
import json, sys
t = json.load(open(sys.argv[2])) if len(sys.argv) > 2 else {}
for l in open(sys.argv[1]):
    x = json.loads(l)
    if "error" in x:
        continue
    print(json.dumps({
        "definition": x["def"], "edit": x["edit"], "breaks": x["breaks"], "claims": x["claims"],
        "failed": x["failed"], "not_rebuilt": [b for b in x["blocked"] if ".Props." in b],
        "tightened": t.get(str(x["i"]), []),
    }, ensure_ascii=False))

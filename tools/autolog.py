#!/usr/bin/env python3
"""usage: autolog.py RESULTS.jsonl [NOTES.json] >> seeded/LOG.jsonl

Turns the output of automut.py into log lines.  NOTES.json maps "def|edit|line" of a mutant that built completely to
{"breaks": ..., "tightened": [...]}.  A random edit has no claim of its own, so the claims are those of the theorems that
failed; when only a helper lemma failed they are left empty.
"""
import json, re, sys
notes = json.load(open(sys.argv[2])) if len(sys.argv) > 2 else {}
for l in open(sys.argv[1]):
    x = json.loads(l)
    if x["illtyped"]:
        continue
    n = notes.get(f"{x['def']}|{x['edit']}|{x['line']}", {})
    claims = sorted({m for f in x["failed"] for m in re.findall(r":(C\d+)_", f)}, key=lambda c: int(c[1:]))
    print(json.dumps({
        "definition": x["def"], "edit": f"{x['edit']} in `{x['line']}` (random)", "breaks": n.get("breaks", f"value of {x['def']}"),
        "claims": n.get("claims", claims), "failed": x["failed"], "tightened": n.get("tightened", []),
    }, ensure_ascii=False))

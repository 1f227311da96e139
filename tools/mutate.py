#!/usr/bin/env python3
"""Test the theorems against wrong programs.

usage: mutate.py MUTATIONS.json RESULTS.jsonl [first [last]]

Each mutation is {"file", "old", "new", "def", "edit", "breaks", "claims"} with optional "targets".  The Lean project is copied to a scratch
directory together with its compiled files, the edit is applied to the copy, and the copy is rebuilt.  Errors are mapped
to the enclosing declarations.  Nothing in /verif is changed.
"""
import json, os, re, shutil, subprocess, sys, time

SRC = os.environ.get("MUT_SRC", "/verif/lean")
WORK = "/tmp/mut/lean"

def decl_at(path, line):
    best = None
    for i, l in enumerate(open(path), 1):
        if i > line:
            break
        m = re.match(r"(?:@\[[^\]]*\]\s*)?(?:private |protected |noncomputable )*(theorem|lemma|def|example|instance)\s*([\w.'?!₀-₉α-ωΑ-Ω]*)", l)
        if m:
            best = m.group(2) or m.group(1)
    return best

def imports():
    g = {}
    for root, _, files in os.walk(WORK + "/Verif"):
        for f in files:
            if f.endswith(".lean"):
                p = os.path.join(root, f)
                mod = os.path.relpath(p, WORK)[:-5].replace("/", ".")
                g[mod] = re.findall(r"^import (Verif[\w.]*)", open(p).read(), re.M)
    return g

def sync():
    subprocess.run(["rsync", "-a", "--delete", SRC + "/", WORK + "/"], check=True) if shutil.which("rsync") else (
        shutil.rmtree(WORK, ignore_errors=True), subprocess.run(["cp", "-a", SRC, WORK], check=True))

def run(m):
    sync()
    p = os.path.join(WORK, m["file"])
    s = open(p).read()
    if s.count(m["old"]) < 1:
        return {"error": "old text not found"}
    n = m.get("count", 1)
    if s.count(m["old"]) != n:
        return {"error": f"old text found {s.count(m['old'])} times"}
    open(p, "w").write(s.replace(m["old"], m["new"]))
    t = time.time()
    r = subprocess.run(["lake", "build"] + (m.get("targets") or []), cwd=WORK, capture_output=True, text=True)
    out = r.stdout + r.stderr
    failed, mods = [], set()
    for f, line in re.findall(r"^error: ([\w/]+\.lean):(\d+):\d+:", out, re.M):
        d = decl_at(os.path.join(WORK, f), int(line))
        e = f"{f[6:-5].replace('/', '.')}:{d}"
        if e not in failed:
            failed.append(e)
        mods.add(f[:-5].replace("/", "."))
    g = imports()
    blocked, todo = set(), set(mods)
    while todo:
        b = todo.pop()
        for k, v in g.items():
            if b in v and k not in blocked and k not in mods:
                blocked.add(k)
                todo.add(k)
            elif b in v and k not in blocked:
                blocked.add(k); todo.add(k)
    return {"ok": r.returncode == 0, "failed": failed, "blocked": sorted(blocked), "secs": round(time.time() - t)}

if __name__ == "__main__":
    ms = json.load(open(sys.argv[1]))
    a = int(sys.argv[3]) if len(sys.argv) > 3 else 0
    b = int(sys.argv[4]) if len(sys.argv) > 4 else len(ms)
    os.makedirs("/tmp/mut", exist_ok=True)
    for i in range(a, b):
        r = run(ms[i])
        with open(sys.argv[2], "a") as o:
            o.write(json.dumps({"i": i, **{k: ms[i][k] for k in ("def", "edit", "breaks", "claims")}, **r}) + "\n")

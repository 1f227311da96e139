#!/usr/bin/env python3
"""Random wrong programs.

usage: automut.py RESULTS.jsonl SEED COUNT [FILE-REGEX]

Picks definitions of lean/Verif/Model at random and makes one small edit in each (operator, sign, number, exchanged
names).  The project is copied to a scratch directory, the edit applied, and the copy rebuilt until a few seconds after
the first error.  A mutant that builds completely survived; look at it by hand.
"""
import json, os, random, re, signal, subprocess, sys, time
sys.path.insert(0, os.path.dirname(__file__))
import mutate
from mutate import WORK, SRC, decl_at, sync

SKIP = re.compile(r"(Tables|QNMData|Constants)\.lean$")
SKIPDEF = re.compile(r"coeff_table|_rows|^gamma_|^EulerGamma|^PI$")
SWAP = [("chi1", "chi2"), ("m1", "m2"), ("m1_s", "m2_s"), ("eta", "eta2"), ("eta2", "eta3"), ("mm1", "mm2"), ("fRD", "fdamp"),
        ("Real.cos", "Real.sin"), ("Real.sin", "Real.cos"), ("lambda1", "lambda2"), ("sin", "cos"), ("f1", "f2")]

def defs():
    out = []
    d = os.path.join(SRC, "Verif/Model")
    for f in sorted(os.listdir(d)):
        if SKIP.search(f) or not f.endswith(".lean"):
            continue
        s = open(os.path.join(d, f)).read()
        for m in re.finditer(r"^(?:noncomputable )?def (\S+)(.*?)(?=^(?:/--|open Classical|def |end|noncomputable def|structure|@|/-!)|\Z)", s, re.M | re.S):
            k = m.group(2).find(":=")
            if k < 0 or SKIPDEF.search(m.group(1)):
                continue
            out.append((f, m.group(1), m.start(2) + k + 2, m.end(2)))
    return out

def candidates(body):
    c = []
    for m in re.finditer(r" ([+*/-]) ", body):
        for n in {"+": "-", "-": "+", "*": "/", "/": "*"}[m.group(1)]:
            c.append((m.start(1), m.end(1), n, f"'{m.group(1)}' replaced by '{n}'"))
    for m in re.finditer(r"(?<![\w.])(\d+(?:\.\d+)?)(?![\w.])", body):
        t = m.group(1)
        if "." in t:
            i = next((k for k, ch in enumerate(t) if ch in "123456789"), 0)
            n = t[:i] + str((int(t[i]) % 9) + 1) + t[i + 1:]
        else:
            n = str(int(t) + 1)
        c.append((m.start(1), m.end(1), n, f"{t} replaced by {n}"))
    for a, b in SWAP:
        for m in re.finditer(rf"(?<![\w.]){re.escape(a)}(?![\w.])", body):
            line = body[body.rfind("\n", 0, m.start()) + 1:m.start()]
            if re.match(r"\s*let \w*$", line):
                continue
            if re.search(rf"(?<![\w.]){re.escape(b)}(?![\w.])", body):
                c.append((m.start(), m.end(), b, f"{a} replaced by {b}"))
    return c

def build():
    t = time.time()
    log = "/tmp/mut/build.log"
    p = subprocess.Popen(["lake", "build"], cwd=WORK, stdout=open(log, "w"), stderr=subprocess.STDOUT, start_new_session=True)
    failed, stop = [], None
    src = open(log)
    buf, other = "", ""
    while True:
        ch = src.read()
        buf += ch
        *lines, buf = buf.split("\n")
        for l in lines:
            m = re.match(r"error: ([\w/]+\.lean):(\d+):\d+:(.*)", l)
            if m:
                e = f"{m.group(1)[6:-5].replace('/', '.')}:{decl_at(os.path.join(WORK, m.group(1)), int(m.group(2)))}"
                if "/Model/" in m.group(1):
                    other = m.group(3)
                if e not in failed:
                    failed.append(e)
                stop = stop or time.time() + 15
        if p.poll() is not None and not ch:
            break
        if stop and time.time() > stop:
            os.killpg(p.pid, signal.SIGKILL)
            break
        time.sleep(0.3)
    p.wait()
    return failed, other, p.returncode, round(time.time() - t)

if __name__ == "__main__":
    out, seed, count = sys.argv[1], int(sys.argv[2]), int(sys.argv[3])
    rx = re.compile(sys.argv[4]) if len(sys.argv) > 4 else None
    rnd = random.Random(seed)
    ds = [d for d in defs() if not rx or rx.search(d[0])]
    rnd.shuffle(ds)
    n = 0
    while n < count:
        f, name, a, b = ds[n % len(ds)]
        n += 1
        s = open(os.path.join(SRC, "Verif/Model", f)).read()
        c = candidates(s[a:b])
        if not c:
            continue
        i, j, new, what = rnd.choice(c)
        sync()
        open(os.path.join(WORK, "Verif/Model", f), "w").write(s[:a + i] + new + s[a + j:])
        k = s.rfind("\n", 0, a + i) + 1
        line = s[k:s.find("\n", a + j)].strip()
        failed, other, rc, secs = build()
        with open(out, "a") as o:
            o.write(json.dumps({"file": f, "def": name, "edit": what, "line": line, "col": a + i - k, "failed": failed,
                                "illtyped": other, "ok": rc == 0, "secs": secs}, ensure_ascii=False) + "\n")

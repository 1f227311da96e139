#!/usr/bin/env python3
"""Draft translator: straight-line numeric Python functions -> Lean `let` chains over ℝ.
Usage: py2lean.py FILE FUNC...   (prints Lean text; output is checked and completed by hand)"""
import ast, sys
from decimal import Decimal
from fractions import Fraction

CALLS = {"sqrt": "Real.sqrt", "log": "Real.log", "exp": "Real.exp", "arctan": "Real.arctan", "cos": "Real.cos",
         "sin": "Real.sin", "arccos": "Real.arccos", "heaviside": "Jnp.heaviside", "power": None, "abs": None,
         "tanh": "Real.tanh"}
SRC = ""

def num(s):
    s = s.replace("_", "").lower()
    if "j" in s:
        raise ValueError(s)
    d = Decimal(s)
    if d == d.to_integral_value() and "e" not in s:
        return str(int(d))
    if s.endswith("."):
        s = s[:-1]
    if "e" in s:
        m, e = s.split("e")
        if m.endswith(".0"): m = m[:-2]
        return m + "e" + e.lstrip("+")
    return s

def const_frac(n):
    """constant-fold an exponent to a Fraction, or None"""
    if isinstance(n, ast.Constant) and isinstance(n.value, (int, float)):
        return Fraction(Decimal(ast.get_source_segment(SRC, n)))
    if isinstance(n, ast.UnaryOp) and isinstance(n.op, ast.USub):
        f = const_frac(n.operand)
        return None if f is None else -f
    if isinstance(n, ast.BinOp) and isinstance(n.op, ast.Div):
        a, b = const_frac(n.left), const_frac(n.right)
        return None if a is None or b is None else a / b
    return None

PREC = {ast.Add: 65, ast.Sub: 65, ast.Mult: 70, ast.Div: 70}
OPS = {ast.Add: "+", ast.Sub: "-", ast.Mult: "*", ast.Div: "/"}

def e(n, p=0):
    def w(s, q):
        return "(" + s + ")" if q < p else s
    if isinstance(n, ast.Constant):
        return num(ast.get_source_segment(SRC, n))
    if isinstance(n, ast.Name):
        return n.id
    if isinstance(n, ast.UnaryOp):
        if isinstance(n.op, ast.USub):
            return w("-" + e(n.operand, 75), 74 if p <= 65 else 0)
        return e(n.operand, p)
    if isinstance(n, ast.BinOp):
        if isinstance(n.op, ast.Pow):
            f = const_frac(n.right)
            b = e(n.left, 80)
            if f is None:
                return w(b + " ^ " + e(n.right, 80), 75)
            if f.denominator == 1 and f >= 0:
                return w(f"{b} ^ {f.numerator}", 75)
            if f.denominator == 1:
                return w(f"{b} ^ ({f.numerator} : ℤ)", 75)
            if f < 0:
                return w(f"{b} ^ (-(({-f.numerator} : ℝ) / {f.denominator}))", 75)
            return w(f"{b} ^ (({f.numerator} : ℝ) / {f.denominator})", 75)
        q = PREC[type(n.op)]
        return w(e(n.left, q) + " " + OPS[type(n.op)] + " " + e(n.right, q + 1), q)
    if isinstance(n, ast.Call):
        f = n.func
        name = f.attr if isinstance(f, ast.Attribute) else f.id
        if name == "abs":
            return "|" + e(n.args[0]) + "|"
        if name == "power":
            return e(ast.BinOp(n.args[0], ast.Pow(), n.args[1]), p)
        name = CALLS.get(name, name)
        return w(name + " " + " ".join(e(a, 100) for a in n.args), 90)
    if isinstance(n, ast.Subscript):
        return w(e(n.value) + " " + e(n.slice, 100), 90)
    if isinstance(n, ast.Tuple):
        return "(" + ", ".join(e(a) for a in n.elts) + ")"
    if isinstance(n, ast.List):
        return "[" + ", ".join(e(a) for a in n.elts) + "]"
    return "«" + ast.get_source_segment(SRC, n) + "»"

def wrap(s, ind, width=118):
    """break a long expression at top-level-ish spaces"""
    if len(s) + ind <= width:
        return s
    out, line = [], ""
    lead = s[:len(s) - len(s.lstrip(" "))]
    for tok in s.strip().split(" "):
        if len(line) + len(tok) + 1 + ind > width:
            out.append(line); line = tok
        else:
            line = tok if not line else line + " " + tok
    out.append(line)
    return lead + ("\n" + " " * (ind + 2)).join(out)

def func(fn):
    args = [a.arg for a in fn.args.args]
    print(f"/-- `{fn.name}`. {PATH}:{fn.lineno}-{fn.end_lineno}. -/")
    print(f"def {fn.name} ({' '.join(args)} : ℝ) : ℝ :=")
    for st in fn.body:
        if isinstance(st, ast.Expr):
            continue
        if isinstance(st, ast.Assign) and len(st.targets) == 1:
            t = st.targets[0]
            if isinstance(t, ast.Tuple) and isinstance(st.value, ast.Name) and st.value.id == "theta":
                names = [x.id for x in t.elts]
                for nm, fld in zip(names, ["m1", "m2", "chi1", "chi2"]):
                    if nm != "_":
                        print(f"  let {nm} : ℝ := theta.{fld}")
                continue
            if isinstance(t, ast.Name):
                s = f"  let {t.id} : ℝ := {e(st.value)}"
            else:
                s = f"  let {e(t)} := {e(st.value)}"
            print(wrap(s, 2))
        elif isinstance(st, ast.AugAssign):
            v = e(ast.BinOp(st.target, st.op, st.value))
            print(wrap(f"  let {st.target.id} : ℝ := {v}", 2))
        elif isinstance(st, ast.Return):
            print(wrap("  " + e(st.value), 2))
        else:
            print("  «" + ast.get_source_segment(SRC, st) + "»")
    print()

if __name__ == "__main__":
    path = sys.argv[1]
    PATH = path.split("/repo/")[-1]
    SRC = open(path).read()
    tree = ast.parse(SRC)
    fns = {f.name: f for f in ast.walk(tree) if isinstance(f, ast.FunctionDef)}
    for name in sys.argv[2:] or fns:
        func(fns[name])

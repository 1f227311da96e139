#!/usr/bin/env python3
"""Generates lean/Verif/Model/NoiseData/*.lean from the shipped noise tables (exact decimals)."""
import os
from decimal import Decimal, getcontext
getcontext().prec=80
R="/repo/src/ripplegw/noise_resources/"
OUT=os.path.join(os.path.dirname(os.path.abspath(__file__)),"..","lean","Verif","Model","NoiseData")
os.makedirs(OUT,exist_ok=True)
def chunks(l,n=200): return [l[i:i+n] for i in range(0,len(l),n)]
def emit(name,file):
    fs=[];ss=[]
    for line in open(R+file):
        line=line.split('#')[0].strip()
        if not line: continue
        a,b=line.split(); fs.append(Decimal(a)); ss.append(None if b=='inf' else Decimal(b))
    def exp(l): return max(0,max(-x.normalize().as_tuple().exponent for x in l if x is not None))
    p=exp(fs); q=exp(ss)
    F=[int(x*Decimal(10)**p) for x in fs]; S=[None if x is None else int(x*Decimal(10)**q) for x in ss]
    assert all(Decimal(a)==x*Decimal(10)**p for a,x in zip(F,fs)) and all(x is None or Decimal(a)==x*Decimal(10)**q for a,x in zip(S,ss))
    gap=min(b-a for a,b in zip(fs,fs[1:]))
    print(name,len(F),"fexp",p,"sexp",q,"mingap",gap,"range",fs[0],fs[-1],"inf",sum(x is None for x in S))
    hasinf=any(x is None for x in S)
    if not hasinf:
        i=next((i for i,x in enumerate(S) if x is not None),0)
    o=open(os.path.join(OUT,name+".lean"),"w")
    o.write(f"""/-
  Generated by tools/gen_noise.py from src/ripplegw/noise_resources/{file} (all {len(F)} rows, exact decimals).
  Frequencies in units of 1e-{p} Hz, second column in units of 1e-{q}; 0 encodes nothing, `none` is `inf`.
-/
namespace Ripple.NoiseData.{name}

/-- decimal exponent of the frequency column -/
def fexp : Nat := {p}
/-- decimal exponent of the value column -/
def sexp : Nat := {q}
""".replace("0 encodes nothing, ",""))
    cf=chunks(F)
    for i,c in enumerate(cf): o.write(f"def f{i} : List Nat := {c}\n")
    o.write("/-- frequency column -/\ndef freqs : List Nat := "+" ++ (".join(f"f{i}" for i in range(len(cf)))+")"*(len(cf)-1)+"\n")
    # leading inf rows are counted, the rest are finite
    ninf=0
    while ninf<len(S) and S[ninf] is None: ninf+=1
    assert all(x is not None for x in S[ninf:])
    cs=chunks(S[ninf:])
    o.write(f"/-- number of leading rows whose value is `inf` -/\ndef ninf : Nat := {ninf}\n")
    for i,c in enumerate(cs): o.write(f"def s{i} : List Nat := {c}\n")
    o.write("/-- value column after the leading `inf` rows -/\ndef vals : List Nat := "+" ++ (".join(f"s{i}" for i in range(len(cs)))+")"*(len(cs)-1)+"\n")
    o.write(f"\nend Ripple.NoiseData.{name}\n"); o.close()
for n,f in [("O2","O2_ASD.dat"),("ALIGO","aLIGO.dat"),("CE","ce.dat"),("ET","et.dat"),("ZDHP","aLIGOZeroDetHighPower.dat"),("O3a","O3a_Livingston_ASD.dat")]:
    emit(n,f)

#!/usr/bin/env python3
"""Generates lean/Verif/Model/QNMData.lean (the three tables of IMRPhenomD_QNMdata.py, exact decimals) and
lean/Verif/Proofs/QNMCert.lean (rounded spline slopes, used as a certificate that the kernel checks)."""
import os
from fractions import Fraction as F
HERE=os.path.dirname(os.path.abspath(__file__))
SRC="/repo/src/ripplegw/waveforms/IMRPhenomD_QNMdata.py"
s=open(SRC).read()
def arr(n):
    i=s.index('\n'+n+' = jnp.array(')
    j=s.index(']',i)
    l0=s.count('\n',0,i)+2; l1=s.count('\n',0,s.index(')',j))+1
    return [F(x.strip()) for x in s[s.index('[',i)+1:j].replace('\n',' ').split(',') if x.strip()],l0,l1
def chunks(l,n=200): return [l[i:i+n] for i in range(0,len(l),n)]
def ints(l,e):
    r=[x*10**e for x in l]
    assert all(x.denominator==1 for x in r)
    return [int(x) for x in r]
def emit(o,name,doc,l):
    cs=chunks(l)
    for i,c in enumerate(cs): o.write(f"def {name}{i} : List Int := {c}\n")
    o.write(f"/-- {doc} -/\ndef {name} : List Int := "+" ++ (".join(f"{name}{i}" for i in range(len(cs)))+")"*(len(cs)-1)+"\n\n")
(A,a0,a1),(R,r0,r1),(D,d0,d1)=[arr(n) for n in ('_QNMData_a','_QNMData_fRD','_QNMData_fdamp')]
X=ints(A,3); YR=ints(R,8); YD=ints(D,8); n=len(X)
H=[X[i+1]-X[i] for i in range(n-1)]
o=open(os.path.join(HERE,"..","lean","Verif","Model","QNMData.lean"),"w")
o.write(f"""/-
  Generated by tools/gen_qnm.py from src/ripplegw/waveforms/IMRPhenomD_QNMdata.py (all {n} rows, exact decimals).
  Spins in units of 1e-3, frequencies in units of 1e-8.
-/
namespace Ripple.QNMData

""")
P="src/ripplegw/waveforms/IMRPhenomD_QNMdata.py"
emit(o,"a",f"`_QNMData_a` in units of 1e-3. {P}:{a0}-{a1}.",X)
emit(o,"fRD",f"`_QNMData_fRD` in units of 1e-8. {P}:{r0}-{r1}.",YR)
emit(o,"fdamp",f"`_QNMData_fdamp` in units of 1e-8. {P}:{d0}-{d1}.",YD)
o.write("end Ripple.QNMData\n"); o.close()
def solve(Y):
    S=[F(Y[i+1]-Y[i],H[i]) for i in range(n-1)]
    lo=[0]*n;di=[0]*n;up=[0]*n;b=[0]*n
    d=H[0]+H[1]; di[0]=H[1];up[0]=d;b[0]=((H[0]+2*d)*H[1]*S[0]+H[0]**2*S[1])/d
    for i in range(1,n-1): lo[i]=H[i];di[i]=2*(H[i-1]+H[i]);up[i]=H[i-1];b[i]=3*(H[i]*S[i-1]+H[i-1]*S[i])
    d=H[-1]+H[-2]; di[-1]=H[-2];lo[-1]=d;b[-1]=(H[-1]**2*S[-2]+(2*d+H[-1])*H[-2]*S[-1])/d
    c=[0.]*n;g=[0.]*n
    c[0]=up[0]/di[0];g[0]=float(b[0])/di[0]
    for i in range(1,n):
        m=di[i]-lo[i]*c[i-1]; c[i]=up[i]/m; g[i]=(float(b[i])-lo[i]*g[i-1])/m
    x=[0.]*n;x[-1]=g[-1]
    for i in range(n-2,-1,-1): x[i]=g[i]-c[i]*x[i+1]
    m=[round(v) for v in x]
    res=[(lo[i]*m[i-1] if i else 0)+di[i]*m[i]+(up[i]*m[i+1] if i<n-1 else 0)-b[i] for i in range(n)]
    print("max residual",float(max(abs(v) for v in res)))
    return m
o=open(os.path.join(HERE,"..","lean","Verif","Proofs","QNMCert.lean"),"w")
o.write("""/-
  Generated by tools/gen_qnm.py: slopes of the two cubic splines at the knots, rounded, in units of 1e-5.  Nothing is assumed
  about them; the proofs check how well they solve the spline equations.
-/
namespace Ripple.QNMCert

""")
emit(o,"mRD","approximate slopes of the ringdown spline",solve(YR))
emit(o,"mdamp","approximate slopes of the damping spline",solve(YD))
o.write("end Ripple.QNMCert\n"); o.close()

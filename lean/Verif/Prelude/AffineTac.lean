/-
  The tactic `affine_bnb [h₁, …] [d₁, …] "tree"`: like `interval_bnb` (the same hypotheses and defined quantities), with
  the affine arithmetic of `Verif/Prelude/Affine.lean`.  The first four variables get a symbol of their own.

  The optional string is the bisection tree in prefix order: `.` is a leaf, `a`, `b`, … bisect the first, second, …
  variable.  It is found beforehand by tools/affine.cpp; without it the search below is run.  Either way the tree is
  untrusted: it is checked by the kernel through `Ripple.IA.checkA`, in chunks of limited size.
-/
import Verif.Prelude.Affine
import Verif.Prelude.IntervalTac

namespace Ripple
namespace IA
open Lean Meta Elab Tactic

/-! untrusted evaluator used by the search -/

structure GF where
  c : Float
  r : Float
  R : Float
  s : Array Float
  deriving Inhabited

def GF.rad (x : GF) : Float := x.s.foldl (fun a b => a + b.abs) x.r
def GF.tight (x : GF) : GF := { x with R := x.rad }
def gconst (v : Float) : GF := ⟨v, 0, 0, #[]⟩
def gzip (f : Float → Float → Float) (a b : Array Float) : Array Float := Id.run do
  let mut out := #[]
  for i in [0:max a.size b.size] do out := out.push (f (a.getD i 0) (b.getD i 0))
  return out
def gmulA (x y : GF) : GF :=
  let g : GF := ⟨x.c * y.c, x.c.abs * y.r + y.c.abs * x.r + x.R * y.R, x.c.abs * y.R + y.c.abs * x.R + x.R * y.R,
    gzip (fun a b => x.c * b + y.c * a) x.s y.s⟩
  if x.s.isEmpty || y.s.isEmpty then g else g.tight
def gsqrA (x : GF) : GF :=
  let h := x.R * x.R / 2
  ⟨x.c * x.c + h, 2 * x.c.abs * x.r + h, 2 * x.c.abs * x.R + h, x.s.map fun a => 2 * x.c * a⟩
def ginvA (y : GF) : Option GF :=
  let a := y.c.abs
  if a ≤ y.R then none else
    let q := 1 / y.c
    let h := q * q * y.R * y.R / (a - y.R) / 2
    some ⟨if 0 < y.c then q + h else q - h, q * q * y.r + h, q * q * y.R + h, y.s.map fun b => -q * q * b⟩

partial def gevA (env : Array GF) : E → Option GF
  | .var i => env[i]?
  | .zero => some (gconst 0)
  | .one => some (gconst 1)
  | .nat n => some (gconst (Float.ofNat n))
  | .dec m k => some (gconst (Float.ofNat m / (Float.ofNat 10).pow (Float.ofNat k)))
  | .neg a => do let x ← gevA env a; return { x with c := -x.c, s := x.s.map fun b => -b }
  | .add a b => do
    let x ← gevA env a; let y ← gevA env b; return ⟨x.c + y.c, x.r + y.r, x.R + y.R, gzip (· + ·) x.s y.s⟩
  | .sub a b => do
    let x ← gevA env a; let y ← gevA env b; return ⟨x.c - y.c, x.r + y.r, x.R + y.R, gzip (· - ·) x.s y.s⟩
  | .mul a b => do let x ← gevA env a; let y ← gevA env b; return gmulA x y
  | .div a b => do let x ← gevA env a; let y ← gevA env b; return gmulA x (← ginvA y)
  | .pow a n => do
    let x ← gevA env a
    if n == 0 then return gconst 1
    if n == 1 then return x
    let x2 := gsqrA x
    let mut p := x2
    for _ in [1:n / 2] do p := gmulA p x2
    return if n % 2 == 1 then gmulA p x else p

/-- best lower bound over the goals -/
def gbestA (defs goals : Array E) (ns : Nat) (box : Array (Float × Float)) : Option Float := do
  let mut env : Array GF := #[]
  for i in [0:box.size] do
    let (lo, hi) := box[i]!
    let m := (lo + hi) / 2
    let h := (hi - lo) / 2
    env := env.push (if i < ns then ⟨m, 0, h, (Array.replicate ns 0).set! i h⟩ else ⟨m, h, h, #[]⟩)
  for d in defs do
    env := env.push (← gevA env d).tight
  let mut best : Option Float := none
  for g in goals do
    match gevA env g with
    | none => pure ()
    | some v =>
      let l := v.c - v.rad
      match best with
      | none => best := some l
      | some b => if b < l then best := some l
  best

def ghalfA (box : Array (Float × Float)) (d : Nat) : Array (Float × Float) × Array (Float × Float) :=
  let (lo, hi) := box[d]!
  let m := (lo + hi) / 2
  (box.set! d (lo, m), box.set! d (m, hi))

def gscoreA (a b : Option Float) (w : Float) : Nat × Float :=
  match a, b with
  | some x, some y => (2, if x < y then 2 * x + y else 2 * y + x)
  | some _, none => (1, w)
  | none, some _ => (1, w)
  | none, none => (0, w)

/-- trees in prefix order: 0 is a leaf, `d + 1` bisects variable `d` -/
partial def gsearchA (defs goals : Array E) (ns maxNodes : Nat) (box : Array (Float × Float)) (depth : Nat) :
    StateT (Array Nat) (Except String) Unit := do
  if (← get).size > maxNodes || depth > 60 then throw s!"too many boxes; at {box}"
  match gbestA defs goals ns box with
  | some b =>
    if 1e-11 < b then
      modify fun out => out.push 0
      return
  | none => pure ()
  let mut best : Option ((Nat × Float) × Nat) := none
  for d in [0:box.size] do
    let (lo, hi) := box[d]!
    if lo < hi then
      let (l, r) := ghalfA box d
      let sc := gscoreA (gbestA defs goals ns l) (gbestA defs goals ns r) (hi - lo)
      match best with
      | none => best := some (sc, d)
      | some (s0, _) => if s0.1 < sc.1 || (s0.1 == sc.1 && s0.2 < sc.2) then best := some (sc, d)
  match best with
  | none => throw "no variables to split"
  | some (_, d) =>
    modify fun out => out.push (d + 1)
    let (l, r) := ghalfA box d
    gsearchA defs goals ns maxNodes l (depth + 1)
    gsearchA defs goals ns maxNodes r (depth + 1)

/-- a bisection tree with the number of leaves -/
inductive GT where
  | leaf
  | node (n d : Nat) (l r : GT)
  deriving Inhabited
def GT.size : GT → Nat
  | .leaf => 1
  | .node n .. => n
partial def GT.ofList : List Nat → GT × List Nat
  | [] => (.leaf, [])
  | 0 :: l => (.leaf, l)
  | (d + 1) :: l =>
    let (a, l) := GT.ofList l
    let (b, l) := GT.ofList l
    (.node (a.size + b.size) d a b, l)
partial def GT.toExpr : GT → Expr
  | .leaf => mkConst ``T.leaf
  | .node _ d l r => mkApp3 (mkConst ``T.node) (mkRawNatLit d) l.toExpr r.toExpr

def fiHalf (box : Array FI) (d : Nat) : Array FI × Array FI :=
  let i := box[d]!
  let m := Int.fdiv (i.lo + i.hi) 2
  (box.set! d ⟨i.lo, m⟩, box.set! d ⟨m, i.hi⟩)

/-- a proof of `checkA … = true`, big trees in pieces -/
partial def proveA (defsE goalsE : Expr) (box : Array FI) : GT → MetaM Expr
  | t => do
    let boxE := listExpr (mkConst ``Iv) (box.toList.map ivExpr)
    if t.size ≤ 8 then
      let bool := mkConst ``Bool
      let chkTy := mkApp3 (mkConst ``Eq [.succ .zero]) bool
        (mkAppN (mkConst ``checkA) #[defsE, goalsE, t.toExpr, boxE]) (mkConst ``Bool.true)
      let lem ← mkAuxLemma [] chkTy (mkApp2 (mkConst ``Eq.refl [.succ .zero]) bool (mkConst ``Bool.true))
      return mkConst lem
    else
      match t with
      | .leaf => throwError "affine_bnb"
      | .node _ d l r =>
        let (bl, br) := fiHalf box d
        let pl ← proveA defsE goalsE bl l
        let pr ← proveA defsE goalsE br r
        let blE := listExpr (mkConst ``Iv) (bl.toList.map ivExpr)
        let brE := listExpr (mkConst ``Iv) (br.toList.map ivExpr)
        let ty := mkApp (mkConst ``List [.zero]) (mkConst ``Iv)
        let rf (e : Expr) := mkApp2 (mkConst ``Eq.refl [.succ .zero]) ty e
        return mkAppN (mkConst ``checkA_node)
          #[defsE, goalsE, mkRawNatLit d, l.toExpr, r.toExpr, boxE, blE, brE, rf blE, rf brE, pl, pr]

syntax (name := affineBnb) "affine_bnb " "[" term,* "]" " [" term,* "]" (str)? : tactic

elab_rules : tactic
  | `(tactic| affine_bnb [$hs,*] [$ds,*] $[$tr]?) => withMainContext do
    let real := mkConst ``Real
    let eTy := mkConst ``E
    let ns := 4
    let goal ← getMainGoal
    let tgt ← instantiateMVars (← goal.getType)
    let mut atoms : Array Expr := #[]
    let mut boxes : Array FI := #[]
    let mut memPf : Array Expr := #[]
    for h in hs.getElems do
      let pf ← elabTerm h none
      let ty ← instantiateMVars (← inferType pf)
      let (``And, #[l, r]) := ty.getAppFnArgs | throwError "affine_bnb: {ty}"
      let (``LE.le, #[_, _, lo, x]) := l.getAppFnArgs | throwError "affine_bnb: {l}"
      let (``LE.le, #[_, _, _, hi]) := r.getAppFnArgs | throwError "affine_bnb: {r}"
      let lo ← reify #[] lo
      let hi ← reify #[] hi
      let some vl := fev #[] lo | throwError "affine_bnb: bound"
      let some vh := fev #[] hi | throwError "affine_bnb: bound"
      atoms := atoms.push x
      boxes := boxes.push ⟨vl.lo, vh.hi⟩
      let some' (v : FI) := mkApp2 (mkConst ``Option.some [.zero]) (mkConst ``Iv) (ivExpr v)
      let optTy := mkApp (mkConst ``Option [.zero]) (mkConst ``Iv)
      let rfl' (v : FI) := mkApp2 (mkConst ``Eq.refl [.succ .zero]) optTy (some' v)
      memPf := memPf.push (mkAppN (mkConst ``mem_of_bounds)
        #[eToExpr lo, eToExpr hi, x, ivExpr vl, ivExpr vh, rfl' vl, rfl' vh, pf])
    let n := atoms.size
    let mut defs : Array E := #[]
    let mut defPf : Array Expr := #[]
    for d in ds.getElems do
      let pf ← elabTerm d none
      let ty ← instantiateMVars (← inferType pf)
      let (``Eq, #[_, y, e]) := ty.getAppFnArgs | throwError "affine_bnb: {ty}"
      let re ← reify atoms e
      defs := defs.push re
      defPf := defPf.push pf
      atoms := atoms.push y
    let atomsF := atoms
    let goals ← (← goalsOf tgt).mapM fun g => liftM (m := MetaM) (reify atomsF g)
    let out ← match tr with
      | some s => pure (s.getString.toList.filterMap fun c =>
          if c == '.' then some 0 else if c.isAlpha then some (c.toNat - 96) else none)
      | none =>
        let toF (i : Int) : Float := Float.ofInt i / 1.152921504606846976e18
        match (gsearchA defs goals ns 4000 (boxes.map fun i => (toF i.lo, toF i.hi)) 0).run #[] with
        | .error e => throwError "affine_bnb: search failed: {e}"
        | .ok (_, out) => do
          trace[debug] "affine_bnb: {out.size} nodes"
          pure out.toList
    let tree := (GT.ofList out).1
    let defsE := listExpr eTy (defs.toList.map eToExpr)
    let goalsE := listExpr eTy (goals.toList.map eToExpr)
    let boxE := listExpr (mkConst ``Iv) (boxes.toList.map ivExpr)
    let xsE := listExpr real atoms.toList
    let chk ← proveA defsE goalsE boxes tree
    -- BoxMem
    let mut hb : Expr := mkConst ``True.intro
    let mut hbTy : Expr := mkConst ``True
    for i in [0:n] do
      let j := n - 1 - i
      let m := mkApp2 (mkConst ``Mem) atoms[j]! (ivExpr boxes[j]!)
      hb := mkApp4 (mkConst ``And.intro) m hbTy memPf[j]! hb
      hbTy := mkApp2 (mkConst ``And) m hbTy
    -- DefsHold
    let mut hd : Expr := mkConst ``True.intro
    let mut hdTy : Expr := mkConst ``True
    for i in [0:defs.size] do
      let j := defs.size - 1 - i
      let m ← inferType defPf[j]!
      hd := mkApp4 (mkConst ``And.intro) m hdTy defPf[j]! hd
      hdTy := mkApp2 (mkConst ``And) m hdTy
    let pf := mkAppN (mkConst ``soundA)
      #[defsE, goalsE, tree.toExpr, boxE, chk, xsE, hb, hd]
    goal.assign pf

end IA
end Ripple

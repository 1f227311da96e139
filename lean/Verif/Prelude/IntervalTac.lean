/-
  The tactic `interval_bnb`: finds the bisection tree for `Ripple.IA.sound`.

  `interval_bnb [h₁, …] [d₁, …]` proves a goal `0 < g` (or `0 < g₁ ∨ 0 < g₂ ∨ …`) about real numbers from box hypotheses
  `hᵢ : lo ≤ x ∧ x ≤ hi` (numeric `lo`, `hi`) and defining equations `dⱼ : y = expr`.  The search below is untrusted;
  the tree it finds is checked by the kernel through `Ripple.IA.check`.
-/
import Verif.Prelude.Interval
import Lean.Elab.Tactic
import Lean.Meta.Tactic.AuxLemma

namespace Ripple
namespace IA
open Lean Meta Elab Tactic

/-! untrusted evaluator used by the search (same arithmetic as `ev`) -/

structure FI where
  lo : Int
  hi : Int
  deriving Inhabited

def fdivP (a : Int) : Int := Int.fdiv a 1152921504606846976
def cdivP (a : Int) : Int := -(Int.fdiv (-a) 1152921504606846976)

def fmul (x y : FI) : FI :=
  let p := x.lo * y.lo
  let q := x.lo * y.hi
  let r := x.hi * y.lo
  let s := x.hi * y.hi
  ⟨fdivP (min (min p q) (min r s)), cdivP (max (max p q) (max r s))⟩

def finv (y : FI) : Option FI :=
  let pp : Int := 1329227995784915872903807060280344576
  if 0 < y.lo then some ⟨pp / y.hi, pp / y.lo + 1⟩
  else if y.hi < 0 then some ⟨-(pp / (-y.hi) + 1), -(pp / (-y.lo))⟩
  else none

partial def fev (env : Array FI) : E → Option FI
  | .var i => env[i]?
  | .zero => some ⟨0, 0⟩
  | .one => some ⟨1152921504606846976, 1152921504606846976⟩
  | .nat n => some ⟨n * 1152921504606846976, n * 1152921504606846976⟩
  | .dec m k =>
    let q : Nat := m * 1152921504606846976 / 10 ^ k
    some ⟨q, q + 1⟩
  | .neg a => do let x ← fev env a; return ⟨-x.hi, -x.lo⟩
  | .add a b => do let x ← fev env a; let y ← fev env b; return ⟨x.lo + y.lo, x.hi + y.hi⟩
  | .sub a b => do let x ← fev env a; let y ← fev env b; return ⟨x.lo - y.hi, x.hi - y.lo⟩
  | .mul a b => do let x ← fev env a; let y ← fev env b; return fmul x y
  | .div a b => do let x ← fev env a; let y ← fev env b; let z ← finv y; return fmul x z
  | .pow a n => do
    let x ← fev env a
    let mut r : FI := ⟨1152921504606846976, 1152921504606846976⟩
    for _ in [0:n] do r := fmul r x
    if n % 2 == 0 && r.lo < 0 then r := ⟨0, r.hi⟩
    return r

/-- best lower bound over the goals -/
def fbest (defs goals : Array E) (box : Array FI) : Option Int := do
  let mut env := box
  for d in defs do
    env := env.push (← fev env d)
  let mut best : Option Int := none
  for g in goals do
    match fev env g with
    | none => pure ()
    | some i => match best with
      | none => best := some i.lo
      | some b => if b < i.lo then best := some i.lo
  best

def fhalf (box : Array FI) (d : Nat) : Array FI × Array FI :=
  let i := box[d]!
  let m := Int.fdiv (i.lo + i.hi) 2
  (box.set! d ⟨i.lo, m⟩, box.set! d ⟨m, i.hi⟩)

/-- score of a split: the larger the better -/
def fscore (a b : Option Int) (w : Int) : Int × Int :=
  match a, b with
  | some x, some y => (2, 2 * min x y + max x y)
  | some _, none => (1, w)
  | none, some _ => (1, w)
  | none, none => (0, w)

partial def fsearch (defs goals : Array E) (maxNodes : Nat) (box : Array FI) (depth : Nat) :
    StateT (Nat × Nat × Array Nat) (Except String) Unit := do
  let (n, dm, out) ← get
  if n > maxNodes then throw s!"more than {maxNodes} nodes"
  if depth > 80 then throw s!"depth; stuck at {box.map fun i => ((Float.ofInt i.lo) / 1.152921504606846976e18, (Float.ofInt i.hi) / 1.152921504606846976e18)}"
  set (n + 1, max dm depth, out)
  match fbest defs goals box with
  | some b =>
    if 0 < b then
      modify fun (n, dm, out) => (n, dm, out.push 0)
      return
  | none => pure ()
  let mut best : Option ((Int × Int) × Nat) := none
  for d in [0:box.size] do
    let (l, r) := fhalf box d
    let sc := fscore (fbest defs goals l) (fbest defs goals r) (box[d]!.hi - box[d]!.lo)
    match best with
    | none => best := some (sc, d)
    | some (s0, _) => if s0.1 < sc.1 || (s0.1 == sc.1 && s0.2 < sc.2) then best := some (sc, d)
  match best with
  | none => throw "no variables to split"
  | some (_, d) =>
    modify fun (n, dm, out) => (n, dm, out.push (d + 1))
    let (l, r) := fhalf box d
    fsearch defs goals maxNodes l (depth + 1)
    fsearch defs goals maxNodes r (depth + 1)

/-! reification -/

partial def reify (atoms : Array Expr) (e : Expr) : MetaM E := do
  let e ← instantiateMVars e
  match atoms.findIdx? (· == e) with
  | some i => return .var i
  | none =>
  match e.getAppFnArgs with
  | (``HAdd.hAdd, #[_, _, _, _, a, b]) => return .add (← reify atoms a) (← reify atoms b)
  | (``HSub.hSub, #[_, _, _, _, a, b]) => return .sub (← reify atoms a) (← reify atoms b)
  | (``HMul.hMul, #[_, _, _, _, a, b]) => return .mul (← reify atoms a) (← reify atoms b)
  | (``HDiv.hDiv, #[_, _, _, _, a, b]) => return .div (← reify atoms a) (← reify atoms b)
  | (``Neg.neg, #[_, _, a]) => return .neg (← reify atoms a)
  | (``HPow.hPow, #[_, _, _, _, a, n]) =>
    let some k ← getNatValue? n | throwError "interval_bnb: exponent {n}"
    return .pow (← reify atoms a) k
  | (``OfScientific.ofScientific, #[_, _, m, s, k]) =>
    let some m := m.rawNatLit? <|> m.nat? | throwError "interval_bnb: literal {e}"
    let some k := k.rawNatLit? <|> k.nat? | throwError "interval_bnb: literal {e}"
    unless s.isConstOf ``Bool.true do throwError "interval_bnb: literal {e}"
    return .dec m k
  | (``OfNat.ofNat, #[_, n, _]) =>
    let some k := n.rawNatLit? | throwError "interval_bnb: literal {e}"
    return if k = 0 then .zero else if k = 1 then .one else .nat k
  | _ => throwError "interval_bnb: not an atom or operation: {e}"

def eToExpr : E → Expr
  | .var i => mkApp (mkConst ``E.var) (mkRawNatLit i)
  | .zero => mkConst ``E.zero
  | .one => mkConst ``E.one
  | .nat n => mkApp (mkConst ``E.nat) (mkRawNatLit n)
  | .dec m k => mkApp2 (mkConst ``E.dec) (mkRawNatLit m) (mkRawNatLit k)
  | .neg a => mkApp (mkConst ``E.neg) (eToExpr a)
  | .add a b => mkApp2 (mkConst ``E.add) (eToExpr a) (eToExpr b)
  | .sub a b => mkApp2 (mkConst ``E.sub) (eToExpr a) (eToExpr b)
  | .mul a b => mkApp2 (mkConst ``E.mul) (eToExpr a) (eToExpr b)
  | .div a b => mkApp2 (mkConst ``E.div) (eToExpr a) (eToExpr b)
  | .pow a n => mkApp2 (mkConst ``E.pow) (eToExpr a) (mkRawNatLit n)

def listExpr (ty : Expr) (l : List Expr) : Expr :=
  l.foldr (fun a r => mkApp3 (mkConst ``List.cons [.zero]) ty a r) (mkApp (mkConst ``List.nil [.zero]) ty)

def intExpr (n : Int) : Expr :=
  match n with
  | .ofNat k => mkApp (mkConst ``Z.pos) (mkRawNatLit k)
  | .negSucc k => mkApp (mkConst ``Z.neg) (mkRawNatLit (k + 1))

/-- read back the tree written by `fsearch` (preorder; 0 is a leaf, `d + 1` bisects coordinate `d`) -/
def treeExpr (out : Array Nat) : Expr := Id.run do
  let mut stack : Array Expr := #[]
  for i in [0:out.size] do
    match out[out.size - 1 - i]! with
    | 0 => stack := stack.push (mkConst ``T.leaf)
    | d + 1 =>
      let l := stack.back!
      let r := stack[stack.size - 2]!
      stack := (stack.pop.pop).push (mkApp3 (mkConst ``T.node) (mkRawNatLit d) l r)
  return stack.back!

def ivExpr (i : FI) : Expr := mkApp2 (mkConst ``Iv.mk) (intExpr i.lo) (intExpr i.hi)

partial def goalsOf (e : Expr) : MetaM (Array Expr) := do
  let e := (← instantiateMVars e).consumeMData
  match e.getAppFnArgs with
  | (``Or, #[a, b]) => return (← goalsOf a) ++ (← goalsOf b)
  | (``LT.lt, #[_, _, z, g]) =>
    unless z.nat? == some 0 do throwError "interval_bnb: goal must have the form 0 < g: {e}"
    return #[g]
  | _ => throwError "interval_bnb: goal must have the form 0 < g: {e}"

syntax (name := intervalBnb) "interval_bnb " "[" term,* "]" " [" term,* "]" (num)? : tactic

elab_rules : tactic
  | `(tactic| interval_bnb [$hs,*] [$ds,*] $[$mx]?) => withMainContext do
    let maxNodes := (mx.map (·.getNat)).getD 4000
    let real := mkConst ``Real
    let eTy := mkConst ``E
    let goal ← getMainGoal
    let tgt ← instantiateMVars (← goal.getType)
    let mut atoms : Array Expr := #[]
    let mut boxes : Array FI := #[]
    let mut memPf : Array Expr := #[]
    for h in hs.getElems do
      let pf ← elabTerm h none
      let ty ← instantiateMVars (← inferType pf)
      let (``And, #[l, r]) := ty.getAppFnArgs | throwError "interval_bnb: {ty}"
      let (``LE.le, #[_, _, lo, x]) := l.getAppFnArgs | throwError "interval_bnb: {l}"
      let (``LE.le, #[_, _, _, hi]) := r.getAppFnArgs | throwError "interval_bnb: {r}"
      let lo ← reify #[] lo
      let hi ← reify #[] hi
      let some vl := fev #[] lo | throwError "interval_bnb: bound"
      let some vh := fev #[] hi | throwError "interval_bnb: bound"
      atoms := atoms.push x
      boxes := boxes.push ⟨vl.lo, vh.hi⟩
      let some' (v : FI) := mkApp2 (mkConst ``Option.some [.zero]) (mkConst ``Iv) (ivExpr v)
      let optTy := mkApp (mkConst ``Option [.zero]) (mkConst ``Iv)
      let rfl' (v : FI) := mkApp2 (mkConst ``Eq.refl [.succ .zero]) optTy (some' v)
      memPf := memPf.push (mkAppN (mkConst ``mem_of_bounds)
        #[eToExpr lo, eToExpr hi, x, ivExpr vl, ivExpr vh, rfl' vl, rfl' vh, pf])
    let n := atoms.size
    let mut defs : Array E := #[]
    let mut defPf : Array Expr := #[]
    for d in ds.getElems do
      let pf ← elabTerm d none
      let ty ← instantiateMVars (← inferType pf)
      let (``Eq, #[_, y, e]) := ty.getAppFnArgs | throwError "interval_bnb: {ty}"
      let re ← reify atoms e
      defs := defs.push re
      defPf := defPf.push pf
      atoms := atoms.push y
    let atomsF := atoms
    let goals ← (← goalsOf tgt).mapM fun g => liftM (m := MetaM) (reify atomsF g)
    match (fsearch defs goals maxNodes boxes 0).run (0, 0, #[]) with
    | .error e => throwError "interval_bnb: search failed: {e}"
    | .ok (_, nodes, dm, out) =>
      trace[debug] "interval_bnb: {nodes} nodes, depth {dm}"
      let tree := treeExpr out
      let defsE := listExpr eTy (defs.toList.map eToExpr)
      let goalsE := listExpr eTy (goals.toList.map eToExpr)
      let boxE := listExpr (mkConst ``Iv) (boxes.toList.map ivExpr)
      let xsE := listExpr real atoms.toList
      let lhs := mkAppN (mkConst ``check) #[defsE, goalsE, tree, boxE]
      let bool := mkConst ``Bool
      let chkTy := mkApp3 (mkConst ``Eq [.succ .zero]) bool lhs (mkConst ``Bool.true)
      let chkPf := mkApp2 (mkConst ``Eq.refl [.succ .zero]) bool (mkConst ``Bool.true)
      let lem ← mkAuxLemma [] chkTy chkPf
      -- BoxMem
      let mut hb : Expr := mkConst ``True.intro
      let mut hbTy : Expr := mkConst ``True
      for i in [0:n] do
        let j := n - 1 - i
        let m := mkApp2 (mkConst ``Mem) atoms[j]! (ivExpr boxes[j]!)
        hb := mkApp4 (mkConst ``And.intro) m hbTy memPf[j]! hb
        hbTy := mkApp2 (mkConst ``And) m hbTy
      -- DefsHold
      let mut hd : Expr := mkConst ``True.intro
      let mut hdTy : Expr := mkConst ``True
      for i in [0:defs.size] do
        let j := defs.size - 1 - i
        let m ← inferType defPf[j]!
        hd := mkApp4 (mkConst ``And.intro) m hdTy defPf[j]! hd
        hdTy := mkApp2 (mkConst ``And) m hdTy
      let pf := mkAppN (mkConst ``sound)
        #[defsE, goalsE, tree, boxE, mkConst lem, xsE, hb, hd]
      goal.assign pf

end IA
end Ripple

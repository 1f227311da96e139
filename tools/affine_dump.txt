/-
  Not part of the development: `affine_dump "file" [h₁, …] [d₁, …]` writes the problem that `affine_bnb` would be given to a
  file for tools/affine.cpp, which searches for a bisection tree, and stops.

    g++ -O2 -o affine tools/affine.cpp
    ./affine file 100000 4 2> tree
-/
import Verif.Prelude.AffineTac

namespace Ripple
namespace IA
open Lean Meta Elab Tactic

partial def dumpE : E → String
  | .var i => s!"v {i}"
  | .zero => "c 0"
  | .one => "c 1"
  | .nat n => s!"c {n}"
  | .dec m k => s!"c {m}e-{k}"
  | .neg a => "n " ++ dumpE a
  | .add a b => "+ " ++ dumpE a ++ " " ++ dumpE b
  | .sub a b => "- " ++ dumpE a ++ " " ++ dumpE b
  | .mul a b => "* " ++ dumpE a ++ " " ++ dumpE b
  | .div a b => "/ " ++ dumpE a ++ " " ++ dumpE b
  | .pow a n => s!"p {n} " ++ dumpE a

syntax (name := affineDump) "affine_dump " str  "[" term,* "]" " [" term,* "]" : tactic

elab_rules : tactic
  | `(tactic| affine_dump $fn:str [$hs,*] [$ds,*]) => withMainContext do
    let goal ← getMainGoal
    let tgt ← instantiateMVars (← goal.getType)
    let mut atoms : Array Expr := #[]
    let mut boxes : Array FI := #[]
    for h in hs.getElems do
      let pf ← elabTerm h none
      let ty ← instantiateMVars (← inferType pf)
      let (``And, #[l, r]) := ty.getAppFnArgs | throwError "affine_dump: {ty}"
      let (``LE.le, #[_, _, lo, x]) := l.getAppFnArgs | throwError "affine_dump: {l}"
      let (``LE.le, #[_, _, _, hi]) := r.getAppFnArgs | throwError "affine_dump: {r}"
      let lo ← reify #[] lo
      let hi ← reify #[] hi
      let some vl := fev #[] lo | throwError "affine_dump: bound"
      let some vh := fev #[] hi | throwError "affine_dump: bound"
      atoms := atoms.push x
      boxes := boxes.push ⟨vl.lo, vh.hi⟩
    let n := atoms.size
    let mut defs : Array E := #[]
    for d in ds.getElems do
      let pf ← elabTerm d none
      let ty ← instantiateMVars (← inferType pf)
      let (``Eq, #[_, y, e]) := ty.getAppFnArgs | throwError "affine_dump: {ty}"
      let re ← reify atoms e
      defs := defs.push re
      atoms := atoms.push y
    let atomsF := atoms
    let goals ← (← goalsOf tgt).mapM fun g => liftM (m := MetaM) (reify atomsF g)
    let toF (i : Int) : Float := Float.ofInt i / 1.152921504606846976e18
    let out := "D " ++ toString n ++ " " ++ toString defs.size ++ " " ++ toString goals.size ++ "\n" ++
      String.join (boxes.toList.map fun b => toString (toF b.lo) ++ " " ++ toString (toF b.hi) ++ "\n") ++
      String.join (defs.toList.map fun e => dumpE e ++ "\n") ++ String.join (goals.toList.map fun e => dumpE e ++ "\n")
    IO.FS.writeFile fn.getString out
    throwError "affine_dump: problem written"

end IA
end Ripple

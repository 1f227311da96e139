/-
  Traced programs in exact real arithmetic, and the inputs at which every step is differentiable.
-/
import Verif.Prelude.Autodiff

namespace Ripple
namespace AD
open Classical

/-- the value of an operation over the reals -/
noncomputable def Op.evalR (ρ : ℕ → ℝ) : Op → ℝ
  | .const r => r
  | .add a b => ρ a + ρ b
  | .sub a b => ρ a - ρ b
  | .mul a b => ρ a * ρ b
  | .div a b => ρ a / ρ b
  | .neg a => -ρ a
  | .sqrt a => Real.sqrt (ρ a)
  | .abs a => |ρ a|
  | .exp a => Real.exp (ρ a)
  | .square a => ρ a * ρ a
  | .powf a p => ρ a ^ p
  | .whereLe c k a b => if ρ c ≤ k then ρ a else ρ b
  | .sin a => Real.sin (ρ a)
  | .cos a => Real.cos (ρ a)
  | .acos a => Real.arccos (ρ a)
  | .atan2 a b => Complex.arg ⟨ρ b, ρ a⟩
  | .max a b => Max.max (ρ a) (ρ b)
  | .prim a f => f fun j => ρ (a j)

/-- the program over the reals -/
noncomputable def runR (ρ : ℕ → ℝ) : Prog → ℕ → ℝ
  | [] => ρ
  | (d, op) :: p => runR (Function.update ρ d (op.evalR ρ)) p

/-- an operation is differentiable at the values of its arguments -/
def Op.Regular (ρ : ℕ → ℝ) : Op → Prop
  | .div _ b => ρ b ≠ 0
  | .sqrt a => 0 < ρ a
  | .abs a => ρ a ≠ 0
  | .powf a _ => 0 < ρ a
  | .whereLe c k _ _ => ρ c ≠ k
  | .acos a => -1 < ρ a ∧ ρ a < 1
  | .atan2 a b => 0 < ρ b ∨ ρ a ≠ 0
  | .max a b => ρ a ≠ ρ b
  | .prim a f => DifferentiableAt ℝ f fun j => ρ (a j)
  | _ => True

/-- every operation of the program is differentiable where it is evaluated, selected or not -/
def Regular (ρ : ℕ → ℝ) : Prog → Prop
  | [] => True
  | (d, op) :: p => op.Regular ρ ∧ Regular (Function.update ρ d (op.evalR ρ)) p

end AD
end Ripple

/-
  Reverse-mode automatic differentiation, as `jax.grad` performs it.

  A traced function is a straight-line program (a jaxpr): a list of assignments of primitive operations to numbered
  variables.  `run` evaluates it over floats with exceptional values, `back` pulls cotangents back through it in reverse
  order.  A cotangent is `none` where JAX keeps a symbolic zero, that is for a variable on which the differentiated output
  does not depend; such a variable is skipped.  The rules of the primitives are those of jax.lax; they are part of the
  trusted base.  The point of the layer is that the rules are evaluated on floats: `0 * inf` and anything computed from
  `nan` is `nan`, also along a branch of `jnp.where` which is not selected.
-/
import Verif.Prelude.XR
import Mathlib.Analysis.Calculus.Deriv.Basic
import Mathlib.Analysis.SpecialFunctions.Complex.Arg
import Mathlib.Analysis.SpecialFunctions.Trigonometric.Inverse

namespace Ripple
namespace AD

noncomputable section
open Classical

/-- Primitive operations; the arguments are variable numbers. -/
inductive Op where
  | const (r : ℝ)
  | add (a b : ℕ)
  | sub (a b : ℕ)
  | mul (a b : ℕ)
  | div (a b : ℕ)
  | neg (a : ℕ)
  | sqrt (a : ℕ)
  | abs (a : ℕ)
  | exp (a : ℕ)
  /-- `x ** 2` with a literal exponent (`integer_pow`) -/
  | square (a : ℕ)
  /-- `x ** p` with a literal exponent that is positive and not an integer (`pow`) -/
  | powf (a : ℕ) (p : ℝ)
  /-- `jnp.where(c <= k, a, b)` with a literal `k` -/
  | whereLe (c : ℕ) (k : ℝ) (a b : ℕ)
  | sin (a : ℕ)
  | cos (a : ℕ)
  | acos (a : ℕ)
  /-- `arctan2(a, b)` -/
  | atan2 (a b : ℕ)
  | max (a b : ℕ)
  /-- a function of four variables whose program is not spelled out: its value is `f`, its rule multiplies the cotangent by
      the partial derivatives of `f` -/
  | prim (a : Fin 4 → ℕ) (f : (Fin 4 → ℝ) → ℝ)

/-- An assignment per line. -/
abbrev Prog := List (ℕ × Op)

/-- the real number held by a float; only used on finite ones -/
def toReal : XR → ℝ
  | .fin r => r
  | _ => 0

/-- `jnp.abs` -/
def xabs : XR → XR
  | .fin r => .fin |r|
  | .pinf => .pinf
  | .ninf => .pinf
  | .nan => .nan

/-- `jnp.sign` -/
def xsign : XR → XR
  | .fin r => .fin (if 0 < r then 1 else if r < 0 then -1 else 0)
  | .pinf => .fin 1
  | .ninf => .fin (-1)
  | .nan => .nan

/-- `p * x ** (p - 1)` for `p` positive and not an integer -/
def xpowfD (x : XR) (p : ℝ) : XR :=
  match x with
  | .fin a => if a < 0 then .nan else if a = 0 ∧ p < 1 then .pinf else .fin (p * a ^ (p - 1))
  | .pinf => if p < 1 then .fin 0 else .pinf
  | .ninf => if p < 1 then .fin 0 else .pinf
  | .nan => .nan

/-- `x <= k`; false for nan -/
def xle (x : XR) (k : ℝ) : Prop :=
  match x with
  | .fin a => a ≤ k
  | .pinf => False
  | .ninf => True
  | .nan => False

/-- `jnp.sin` and `jnp.cos` -/
def xtrig (f : ℝ → ℝ) : XR → XR
  | .fin a => .fin (f a)
  | _ => .nan

/-- `jnp.arccos` -/
def xacos : XR → XR
  | .fin a => if -1 ≤ a ∧ a ≤ 1 then .fin (Real.arccos a) else .nan
  | _ => .nan

/-- `jnp.arctan2`.  Simplified: nan for infinite arguments, where IEEE returns a multiple of `π / 4`. -/
def xatan2 : XR → XR → XR
  | .fin y, .fin x => .fin (Complex.arg ⟨x, y⟩)
  | _, _ => .nan

/-- `jnp.maximum` -/
def xmax : XR → XR → XR
  | .nan, _ => .nan
  | _, .nan => .nan
  | x, y => if XR.lt x y then y else x

/-- `x == y`; false for nan -/
def xeq : XR → XR → Prop
  | .fin a, .fin b => a = b
  | .pinf, .pinf => True
  | .ninf, .ninf => True
  | _, _ => False

/-- the factor of the rule of `max` for the argument `x`, with the other argument `y`: 1 if `x` is the larger one, 1/2 if
    both are equal, 0 otherwise -/
def balanced (x ans y : XR) : XR := .fin (if xeq x ans then 1 else 0) / .fin (if xeq y ans then 2 else 1)

/-- The value of an operation. -/
def Op.eval (env : ℕ → XR) : Op → XR
  | .const r => .fin r
  | .add a b => env a + env b
  | .sub a b => env a - env b
  | .mul a b => env a * env b
  | .div a b => env a / env b
  | .neg a => -env a
  | .sqrt a => XR.sqrt (env a)
  | .abs a => xabs (env a)
  | .exp a => XR.exp (env a)
  | .square a => env a * env a
  | .powf a p => XR.powFrac (env a) p
  | .whereLe c k a b => if xle (env c) k then env a else env b
  | .sin a => xtrig Real.sin (env a)
  | .cos a => xtrig Real.cos (env a)
  | .acos a => xacos (env a)
  | .atan2 a b => xatan2 (env a) (env b)
  | .max a b => xmax (env a) (env b)
  | .prim a f => if ∀ j, (env (a j)).isFin then .fin (f fun j => toReal (env (a j))) else .nan

/-- The contributions of an operation with value `ans` and output cotangent `g` to the cotangents of its arguments. -/
def Op.pull (env : ℕ → XR) (ans g : XR) : Op → List (ℕ × XR)
  | .const _ => []
  | .add a b => [(a, g), (b, g)]
  | .sub a b => [(a, g), (b, -g)]
  | .mul a b => [(a, g * env b), (b, env a * g)]
  | .div a b => [(a, g / env b), (b, -g * env a * (.fin 1 / (env b * env b)))]
  | .neg a => [(a, -g)]
  | .sqrt a => [(a, g * (.fin 0.5 / ans))]
  | .abs a => [(a, g * xsign (env a))]
  | .exp a => [(a, g * ans)]
  | .square a => [(a, g * (.fin 2 * env a))]
  | .powf a p => [(a, g * xpowfD (env a) p)]
  | .whereLe c k a b => [(a, if xle (env c) k then g else .fin 0), (b, if xle (env c) k then .fin 0 else g)]
  | .sin a => [(a, g * xtrig Real.cos (env a))]
  | .cos a => [(a, -(g * xtrig Real.sin (env a)))]
  | .acos a => [(a, g * -(.fin 1 / XR.sqrt (.fin 1 - env a * env a)))]
  | .atan2 a b => [(a, g * (env b / (env a * env a + env b * env b))), (b, g * (-env a / (env a * env a + env b * env b)))]
  | .max a b => [(a, g * balanced (env a) ans (env b)), (b, g * balanced (env b) ans (env a))]
  | .prim a f => (List.finRange 4).map fun j => (a j, g * (if ∀ j, (env (a j)).isFin then
      .fin (deriv (fun t => f (Function.update (fun j => toReal (env (a j))) j t)) (toReal (env (a j)))) else .nan))

/-- The variables after the program. -/
def run (env : ℕ → XR) : Prog → ℕ → XR
  | [] => env
  | (d, op) :: p => run (Function.update env d (op.eval env)) p

/-- Cotangents, `none` for a symbolic zero. -/
abbrev Cot := ℕ → Option XR

/-- addition of a contribution -/
def Cot.add (ct : Cot) (i : ℕ) (x : XR) : Cot :=
  Function.update ct i (some (match ct i with | none => x | some y => y + x))

/-- addition of the contributions of one operation -/
def Cot.addAll (ct : Cot) (l : List (ℕ × XR)) : Cot := l.foldl (fun c x => c.add x.1 x.2) ct

/-- one operation pulled back: the cotangent of the assigned variable is spent on the arguments -/
def pullStep (env : ℕ → XR) (d : ℕ) (op : Op) (ct : Cot) : Cot :=
  match ct d with
  | none => Function.update ct d none
  | some g => Cot.addAll (Function.update ct d none) (op.pull env (op.eval env) g)

/-- The cotangents before the program, from those after it. -/
def back (env : ℕ → XR) : Prog → Cot → Cot
  | [], ct => ct
  | (d, op) :: p, ct => pullStep env d op (back (Function.update env d (op.eval env)) p ct)

/-- the cotangent of a single output -/
def unit (o : ℕ) : Cot := fun i => if i = o then some (.fin 1) else none

/-- `jax.grad`: the derivative of output `o` in input `i`. -/
def grad (p : Prog) (env : ℕ → XR) (o i : ℕ) : XR := ((back env p (unit o)) i).getD (.fin 0)

end
end AD
end Ripple

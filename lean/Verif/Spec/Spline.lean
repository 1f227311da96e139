/-
  What the interpolant behind the quasi-normal-mode tables is supposed to be, independently of how it is computed.
-/
import Mathlib.Analysis.Calculus.ContDiff.Basic
import Mathlib.Data.Real.Basic
import Mathlib.Data.List.GetD

namespace Ripple

/-- `S` agrees with one cubic polynomial on `[a,b]` -/
def CubicOn (S : ℝ → ℝ) (a b : ℝ) : Prop :=
  ∃ c0 c1 c2 c3 : ℝ, ∀ v, a ≤ v → v ≤ b → S v = c0 + c1 * v + c2 * v ^ 2 + c3 * v ^ 3

/-- The not-a-knot cubic spline through the points `(xs k, ys k)`: passes through them, is cubic between neighbouring
    abscissae, twice continuously differentiable in between the end points, and one cubic on the first two and on the last two
    cells. -/
structure NotAKnotSpline (xs ys : List ℝ) (S : ℝ → ℝ) : Prop where
  through : ∀ k, k < xs.length → S (xs.getD k 0) = ys.getD k 0
  cubic : ∀ k, k + 1 < xs.length → CubicOn S (xs.getD k 0) (xs.getD (k + 1) 0)
  smooth : ContDiffOn ℝ 2 S (Set.Ioo (xs.getD 0 0) (xs.getD (xs.length - 1) 0))
  first : CubicOn S (xs.getD 0 0) (xs.getD 2 0)
  last : CubicOn S (xs.getD (xs.length - 3) 0) (xs.getD (xs.length - 1) 0)

end Ripple

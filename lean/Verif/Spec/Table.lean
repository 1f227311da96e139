/-
  Specification vocabulary for interpolation tables.
-/
import Mathlib.Data.Real.Basic

namespace Ripple

/-- a table of strictly increasing abscissae with gaps larger than `eps` (≥ 2 points) -/
def GoodGrid (eps : ℝ) (xp : List ℝ) : Prop :=
  2 ≤ xp.length ∧ ∀ k, k + 1 < xp.length → xp.getD k 0 + eps < xp.getD (k + 1) 0

end Ripple

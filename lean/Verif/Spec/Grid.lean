/-
  Specification vocabulary for frequency grids.
-/
import Mathlib.Data.Real.Basic
import Mathlib.Algebra.Order.Group.Abs

namespace Ripple

/-- `i` is the position of the grid point closest to `c` (the first one in case of a tie) -/
def IsClosest (grid : List ℝ) (c : ℝ) (i : ℕ) : Prop :=
  i < grid.length ∧ (∀ j, j < grid.length → |grid.getD i 0 - c| ≤ |grid.getD j 0 - c|) ∧
    ∀ j, j < i → |grid.getD i 0 - c| < |grid.getD j 0 - c|

/-- strictly increasing grid -/
def Increasing (grid : List ℝ) : Prop :=
  ∀ i j, i < j → j < grid.length → grid.getD i 0 < grid.getD j 0

end Ripple

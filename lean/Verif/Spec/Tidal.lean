/-
  Independent specification of the tidal deformability parameters
  (Wade et al. 2014, Favata 2014), written in terms of the component masses.
-/
import Mathlib.Data.Real.Basic

namespace Ripple.Spec
noncomputable section

/-- Λ̃ = 16/13 · [(m1+12 m2) m1⁴ Λ1 + (m2+12 m1) m2⁴ Λ2] / (m1+m2)⁵ -/
def lambdaTilde (m1 l1 m2 l2 : ℝ) : ℝ :=
  16 / 13 * ((m1 + 12 * m2) * m1 ^ 4 * l1 + (m2 + 12 * m1) * m2 ^ 4 * l2) / (m1 + m2) ^ 5

/-- the symmetric mass ratio at which the pair (Λ̃, δΛ̃) degenerates -/
def etaSingular : ℝ := 4823 / 249158

end
end Ripple.Spec

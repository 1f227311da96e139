/-
  When a frequency arrives, and the slopes of the three pieces of the PhenomD phase.
-/
import Verif.Model.PhenomD
import Mathlib.Analysis.Calculus.Deriv.Basic

namespace Ripple

/-- The part of the signal at frequency `f` arrives at time `t`: the group delay of the spectrum `h`.  A delay by `t` seconds
    multiplies a spectrum by `exp (-2 π i f t)`. -/
def Arrives (h : ℝ → ℂ) (f t : ℝ) : Prop :=
  ∃ d : ℂ, HasDerivAt h d f ∧ h f ≠ 0 ∧ t = -(d / h f).im / (2 * Real.pi)

namespace PhenomD
noncomputable section

/-- slope of the post-Newtonian phase and its fitted continuation at `f M = x` -/
def slopeIns (p : PhasePN) (c : Fin 19 → ℝ) (eta x : ℝ) : ℝ :=
  let u := (Real.pi * x) ^ ((1 : ℝ) / 3)
  3 * Real.pi / (128 * eta) * (-(5 / 3) * p.phi0 / u ^ 8 - 4 / 3 * p.phi1 / u ^ 7 - p.phi2 / u ^ 6 - 2 / 3 * p.phi3 / u ^ 5
    - 1 / 3 * p.phi4 / u ^ 4 + 1 / 3 * p.phi5_log / u ^ 3 + 1 / 3 * (p.phi6 + p.phi6_log * (1 + Real.log u)) / u ^ 2
    + 2 / 3 * p.phi7 / u)
  + (c 7 + c 8 * x ^ ((1 : ℝ) / 3) + c 9 * x ^ ((2 : ℝ) / 3) + c 10 * x) / eta

/-- slope of the fitted phase between inspiral and ringdown -/
def slopeMid (c : Fin 19 → ℝ) (eta x : ℝ) : ℝ := (c 11 + c 12 / x + c 13 / x ^ 4) / eta

/-- slope of the fitted phase of merger and ringdown, with ringdown frequency `R` and damping frequency `d` -/
def slopeRing (c : Fin 19 → ℝ) (eta R d x : ℝ) : ℝ :=
  (c 14 + c 15 / x ^ 2 + c 16 / x ^ ((1 : ℝ) / 4) + c 17 * d / (d ^ 2 + (x - c 18 * R) ^ 2)) / eta

/-- what the slopes of the pieces jump by at the two points where they are joined, `f M = 0.018` and half the ringdown frequency -/
def lag (p : PhasePN) (c : Fin 19 → ℝ) (eta R d : ℝ) : ℝ :=
  slopeIns p c eta 0.018 - slopeMid c eta 0.018 + slopeMid c eta (R / 2) - slopeRing c eta R d (R / 2)

end
end PhenomD
end Ripple

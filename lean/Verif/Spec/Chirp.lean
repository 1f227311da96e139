/-
  The Newtonian chirp: how long before coalescence a low frequency arrives.
-/
import Verif.Spec.Arrival

namespace Ripple
open Filter Topology

/-- At low frequency the spectrum is that of an inspiral of chirp mass `c` (in seconds): the frequency `f` arrives
    `5/256 c^(-5/3) (π f)^(-8/3)` before coalescence, to leading order (the quadrupole formula for a circular orbit). -/
def Chirps (h : ℝ → ℂ) (c : ℝ) : Prop :=
  ∃ T : ℝ → ℝ, (∀ᶠ f in 𝓝[>] 0, Arrives h f (T f)) ∧
    Tendsto (fun f => T f / (5 / 256 * c ^ (-((5 : ℝ) / 3)) * (Real.pi * f) ^ (-((8 : ℝ) / 3)))) (𝓝[>] 0) (𝓝 (-1))

/-- ... and the first correction is that of general relativity at first post-Newtonian order, for the symmetric mass ratio `η`:
    `f` arrives `5/256 c^(-5/3) (π f)^(-8/3) (1 + (743/252 + 11/3 η) (π M f)^(2/3))` before coalescence, with `M = c / η^(3/5)` the total
    mass. -/
def ChirpsPN (h : ℝ → ℂ) (c η : ℝ) : Prop :=
  ∃ T : ℝ → ℝ, (∀ᶠ f in 𝓝[>] 0, Arrives h f (T f)) ∧
    Tendsto (fun f => (T f / (5 / 256 * c ^ (-((5 : ℝ) / 3)) * (Real.pi * f) ^ (-((8 : ℝ) / 3))) + 1) / (Real.pi * f) ^ ((2 : ℝ) / 3))
      (𝓝[>] 0) (𝓝 (-((743 / 252 + 11 / 3 * η) * (c / η ^ ((3 : ℝ) / 5)) ^ ((2 : ℝ) / 3))))

/-- the spin-orbit parameter `β = Σ (113/12 X_i^2 + 25/4 η) χ_i` of two bodies with spins along the orbital angular momentum (Cutler and
    Flanagan 1994), with `X_i` the mass fractions -/
noncomputable def spinOrbit (m1 m2 χ1 χ2 : ℝ) : ℝ :=
  (113 / 12 * (m1 / (m1 + m2)) ^ 2 + 25 / 4 * (m1 * m2 / (m1 + m2) ^ 2)) * χ1
    + (113 / 12 * (m2 / (m1 + m2)) ^ 2 + 25 / 4 * (m1 * m2 / (m1 + m2) ^ 2)) * χ2

/-- ... and the second correction, from the tail of the radiation and the coupling of spins and orbit, is
    `8/5 (β - 4 π) (π M f)` relative to the leading term. -/
def ChirpsSO (h : ℝ → ℂ) (c η β : ℝ) : Prop :=
  ∃ T : ℝ → ℝ, (∀ᶠ f in 𝓝[>] 0, Arrives h f (T f)) ∧
    Tendsto (fun f => (T f / (5 / 256 * c ^ (-((5 : ℝ) / 3)) * (Real.pi * f) ^ (-((8 : ℝ) / 3))) + 1
        + (743 / 252 + 11 / 3 * η) * (c / η ^ ((3 : ℝ) / 5)) ^ ((2 : ℝ) / 3) * (Real.pi * f) ^ ((2 : ℝ) / 3)) / (Real.pi * f))
      (𝓝[>] 0) (𝓝 (-(8 / 5 * (β - 4 * Real.pi) * (c / η ^ ((3 : ℝ) / 5)))))

end Ripple

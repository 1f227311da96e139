/-
  Specification vocabulary for noise-weighted inner products.
-/
import Verif.Prelude.XR
import Mathlib.Analysis.SpecialFunctions.Complex.Circle

namespace Ripple.Spec

/-- A legitimate power spectral density: every bin is a positive finite number or +∞. -/
def IsPSD {n : ℕ} (S : Fin n → XR) : Prop := ∀ i, (∃ r : ℝ, 0 < r ∧ S i = .fin r) ∨ S i = .pinf

/-- The strain is non-zero in at least one bin in which the detector has finite noise. -/
def Visible {n : ℕ} (S : Fin n → XR) (h : Fin n → ℂ) : Prop := ∃ i, h i ≠ 0 ∧ ∃ r : ℝ, S i = .fin r

/-- The PSD multiplied by a constant (∞ stays ∞). -/
noncomputable def scalePSD {n : ℕ} (c : ℝ) (S : Fin n → XR) : Fin n → XR :=
  fun i => match S i with
    | .fin r => .fin (c * r)
    | x => x

/-- the frequency grid is uniform with spacing `df` -/
def UniformGrid {n : ℕ} (fs : Fin n → ℝ) (f0 df : ℝ) : Prop := ∀ i, fs i = f0 + (i : ℕ) * df

end Ripple.Spec

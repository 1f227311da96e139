/-
  Specification of the accuracy of the overlap and the match: what is asked of the numerical library, and of the samples.
-/
import Verif.Model.RoundedMatch
import Mathlib.Analysis.SpecialFunctions.Trigonometric.Basic

namespace Ripple
namespace Fp

/-- A complex number as a pair of finite floats. -/
def ofC (z : ℂ) : XR × XR := (.fin z.re, .fin z.im)

/-- both parts are numbers of the format -/
def CFloat (F : Fmt) (z : ℂ) : Prop := F.IsFloat z.re ∧ F.IsFloat z.im

/-- The modulus, the complex division and the inverse Fourier transform return numbers of the format, with relative error `δ`
    (for the transform relative to the mean modulus of its input), as long as twice the result does not overflow. -/
structure Lib.Accurate {F : Fmt} (lib : Lib F) (δ : ℝ) : Prop where
  cabs : ∀ z : ℂ, CFloat F z → 2 * ‖z‖ < 2 ^ F.emax →
    ∃ r, lib.cabs (ofC z) = .fin r ∧ F.IsFloat r ∧ |r - ‖z‖| ≤ δ * ‖z‖ + 4 * F.minNormal
  cdiv : ∀ (z : ℂ) (s : ℝ), CFloat F z → F.IsFloat s → 0 < s → 2 * (‖z‖ / s) < 2 ^ F.emax →
    ∃ w, lib.cdiv (ofC z) (.fin s) = ofC w ∧ CFloat F w ∧ ‖w - z / (s : ℂ)‖ ≤ δ * (‖z‖ / s) + 4 * F.minNormal
  ifft : ∀ {N : ℕ} (x : Fin N → ℂ), (∀ i, CFloat F (x i)) → 2 * ∑ i, ‖x i‖ < 2 ^ F.emax → ∀ k,
    ∃ w, lib.ifft (fun i => ofC (x i)) k = ofC w ∧ CFloat F w ∧
      ‖w - 1 / (N : ℂ) * ∑ i : Fin N, x i * Complex.exp (2 * Real.pi * Complex.I * k * i / N)‖
        ≤ δ * ((∑ i, ‖x i‖) / N) + 4 * F.minNormal

/-- The phase factors of the time shift have error `δ`. -/
def Lib.PhaseAccurate {F : Fmt} (lib : Lib F) (δ : ℝ) {n : ℕ} (fs : Fin n → ℝ) (del_t : ℝ) : Prop :=
  ∀ i, ‖(⟨(lib.cis (fs i) del_t).1, (lib.cis (fs i) del_t).2⟩ : ℂ) - Complex.exp (Complex.I * 2 * Real.pi * fs i * del_t)‖ ≤ δ

/-- squared noise-weighted norm of a waveform -/
noncomputable def normSq {n : ℕ} (S : Fin n → ℝ) (h : Fin n → ℂ) : ℝ := ∑ i, ‖h i‖ ^ 2 / S i

/-- A waveform of a size the format can hold: no square overflows, and numbers below the normal range are negligible in the norm.
    `N` is the number of samples with padding. -/
structure WellScaled (F : Fmt) (N : ℕ) {n : ℕ} (S : Fin n → ℝ) (h : Fin n → ℂ) : Prop where
  float : ∀ i, CFloat F (h i)
  high : ∀ i, 8 * ‖h i‖ ^ 2 < 2 ^ F.emax
  norm_high : 8 * normSq S h < 2 ^ F.emax
  low : F.minNormal * ((N : ℝ) + 1) ≤ F.u * normSq S h
  noise_low : F.minNormal * ∑ i, 1 / S i ≤ F.u * normSq S h

end Fp
end Ripple

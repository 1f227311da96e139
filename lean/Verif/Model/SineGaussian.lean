/-
  Model of src/ripplegw/waveforms/SineGaussian.py.
-/
import Verif.Model.Constants
import Verif.Prelude.Jnp
import Mathlib.Analysis.SpecialFunctions.Complex.Circle
import Mathlib.Analysis.SpecialFunctions.Sqrt

namespace Ripple
namespace SineGaussian
noncomputable section

/-- `semi_major_minor_from_e`. src/ripplegw/waveforms/SineGaussian.py:8-20. -/
def semi_major_minor_from_e (e : ℝ) : ℝ × ℝ :=
  let a : ℝ := 1 / Real.sqrt (2 - e * e)
  let b : ℝ := a * Real.sqrt (1 - e * e)
  (a, b)

/-- `gen_SineGaussian_hphc`. src/ripplegw/waveforms/SineGaussian.py:23-96.
    `quality, frequency, hrss, phase, eccentricity = theta` unpacks exactly five numbers, which are the arguments here. -/
def gen_SineGaussian_hphc (t : List ℝ) (quality frequency hrss phase eccentricity : ℝ) : List ℝ × List ℝ :=
  let pi : ℝ := PI
  let ab := semi_major_minor_from_e eccentricity
  let a : ℝ := ab.1
  let b : ℝ := ab.2
  let norm_prefactor : ℝ := quality / (4 * frequency * Real.sqrt pi)
  let cosine_norm : ℝ := norm_prefactor * (1 + Real.exp (-quality * quality))
  let sine_norm : ℝ := norm_prefactor * (1 - Real.exp (-quality * quality))
  let cos_phase : ℝ := Real.cos phase
  let sin_phase : ℝ := Real.sin phase
  let h0_plus : ℝ := hrss * a / Real.sqrt (cosine_norm * cos_phase ^ 2 + sine_norm * sin_phase ^ 2)
  let h0_cross : ℝ := hrss * b / Real.sqrt (cosine_norm * sin_phase ^ 2 + sine_norm * cos_phase ^ 2)
  let phi : List ℝ := t.map fun t => 2 * pi * frequency * t
  let complex_phase : List ℂ := phi.map fun phi => (⟨0, phi - phase⟩ : ℂ)
  let fac : List ℂ := List.zipWith (fun (phi : ℝ) (cp : ℂ) => Complex.exp ((phi ^ 2 / (-2 * quality ^ 2) : ℝ) + cp))
    phi complex_phase
  let cross : List ℝ := fac.map fun fac => fac.im * h0_cross
  let plus : List ℝ := fac.map fun fac => fac.re * h0_plus
  (plus, cross)

end
end SineGaussian
end Ripple

/-
  Model of the match functions of src/ripplegw/__init__.py, lines 342-518.
-/
import Verif.Prelude.Jnp
import Mathlib.Data.Fin.Tuple.Basic

namespace Ripple
noncomputable section
open Jnp

/-- the two warnings of `get_eff_pads` -/
inductive PadWarning where
  | notEvenlySpaced
  | notMultiples
  deriving DecidableEq

open Classical in
/-- `get_eff_pads`. src/ripplegw/__init__.py:342-371.  Returns the issued warnings and the two pads.
    Simplification: only called with at least two grid points (for one point `df` is 0/0). -/
def get_eff_pads (fs : List ℝ) : Except PyErr (List PadWarning × List ℝ × List ℝ) := do
  let first := index fs 0
  let last := index fs (-1)
  let df := (last - first) / ((fs.length : ℝ) - 1)
  let w1 := if ∀ d ∈ diff fs, isclose d df then [] else [PadWarning.notEvenlySpaced]
  let w2 := if fmod first df ≠ 0 ∨ fmod last df ≠ 0 then [PadWarning.notMultiples] else []
  let N := 2 * trunc (last / df - 1)
  let pad_low ← zeros (trunc (first / df))
  let pad_high ← zeros (N - trunc (last / df))
  return (w1 ++ w2, pad_low, pad_high)

/-- `jnp.sqrt(jnp.sum(jnp.abs(hs) ** 2 / Sns))`. src/ripplegw/__init__.py:395-396 and 466-467. -/
def noiseNorm {n : ℕ} (Sns : Fin n → XR) (hs : Fin n → ℂ) : XR :=
  XR.sqrt (XR.sum (List.ofFn fun i => XR.fin (‖hs i‖ ^ 2) / Sns i))

/-- `get_phase_maximized_inner_product_arr`. src/ripplegw/__init__.py:375-401. -/
def get_phase_maximized_inner_product_arr {n : ℕ} (del_t : ℝ) (fs : Fin n → ℝ) (Sns : Fin n → XR)
    (h1s h2s : Fin n → ℂ) : XR :=
  let norm1 := noiseNorm Sns h1s
  let norm2 := noiseNorm Sns h2s
  let integral := cabsX (csumX fun i =>
    cdivX (star (h1s i) * h2s i * Complex.exp (Complex.I * 2 * Real.pi * fs i * del_t)) (Sns i))
  integral / (norm1 * norm2)

/-- Waveform from amplitude and phase arrays: `amp(fs, theta) * jnp.exp(1j * Psi(fs, theta))`.
    src/ripplegw/__init__.py:435, 440, 511, 516. -/
def strain {n : ℕ} {Θ : Type} (amp Psi : (Fin n → ℝ) → Θ → Fin n → ℝ) (fs : Fin n → ℝ) (theta : Θ) : Fin n → ℂ :=
  fun i => (amp fs theta i : ℂ) * Complex.exp (Complex.I * (Psi fs theta i : ℂ))

/-- `get_phase_maximized_inner_product`. src/ripplegw/__init__.py:404-442. `none` models Python `None`. -/
def get_phase_maximized_inner_product {n : ℕ} {Θ : Type} (del_t : ℝ) (fs : Fin n → ℝ)
    (Sn : (Fin n → ℝ) → Fin n → XR) (theta1 theta2 : Θ)
    (amp1 Psi1 : (Fin n → ℝ) → Θ → Fin n → ℝ) (amp2 Psi2 : Option ((Fin n → ℝ) → Θ → Fin n → ℝ)) : XR :=
  let h1s := strain amp1 Psi1 fs theta1
  let amp2 := match amp2 with | none => amp1 | some a => a
  let Psi2 := match Psi2 with | none => Psi1 | some p => p
  let h2s := strain amp2 Psi2 fs theta2
  let Sns := Sn fs
  get_phase_maximized_inner_product_arr del_t fs Sns h1s h2s

/-- `get_match_arr`. src/ripplegw/__init__.py:445-473. -/
def get_match_arr {a n b : ℕ} (pad_low : Fin a → ℂ) (pad_high : Fin b → ℂ) (Sns : Fin n → XR)
    (h1s h2s : Fin n → ℂ) : XR :=
  let norm1 := noiseNorm Sns h1s
  let norm2 := noiseNorm Sns h2s
  let integrand_padded : Fin (a + n + b) → Option ℂ :=
    Fin.append (Fin.append (fun i => some (pad_low i)) (fun i => cdivX (star (h1s i) * h2s i) (Sns i)))
      (fun i => some (pad_high i))
  maxX (fun k => cabsX ((ifftX integrand_padded k).map fun z => ((a + n + b : ℕ) : ℂ) * z)) / (norm1 * norm2)

/-- `get_match`. src/ripplegw/__init__.py:476-518. -/
def get_match {a n b : ℕ} {Θ : Type} (fs : Fin n → ℝ) (pad_low : Fin a → ℂ) (pad_high : Fin b → ℂ)
    (Sn : (Fin n → ℝ) → Fin n → XR) (theta1 theta2 : Θ)
    (amp1 Psi1 : (Fin n → ℝ) → Θ → Fin n → ℝ) (amp2 Psi2 : Option ((Fin n → ℝ) → Θ → Fin n → ℝ)) : XR :=
  let h1s := strain amp1 Psi1 fs theta1
  let amp2 := match amp2 with | none => amp1 | some a => a
  let Psi2 := match Psi2 with | none => Psi1 | some p => p
  let h2s := strain amp2 Psi2 fs theta2
  let Sns := Sn fs
  get_match_arr pad_low pad_high Sns h1s h2s

end
end Ripple

/-
  Model of src/ripplegw/noise.py.
-/
import Verif.Prelude.Jnp

namespace Ripple
noncomputable section
open Jnp

/-- `Sn_LIGOI`. src/ripplegw/noise.py:25-48.  The first `jnp.where` branch is a finite real for `f > 40`
    (positive base of the fractional power), the other is `jnp.inf`. -/
def Sn_LIGOI (f : ℝ) : XR :=
  let fs : ℝ := 40
  let f_theta : ℝ := 150
  let x := f / f_theta
  let normalization : ℝ := 1e-46
  if f > fs then
    .fin (normalization * 9 *
      ((4.49 * x) ^ (-56 : ℤ) + 0.16 * x ^ (-4.52 : ℝ) + 0.52 + 0.32 * x ^ 2))
  else .pinf

/-- `Sns[Sns == 0.0] = np.inf` for one entry. src/ripplegw/noise.py:75. -/
def zeroToInf : XR → XR
  | .fin r => if r = 0 then .pinf else .fin r
  | s => s

/-- `_load_noise`: interpolator and frequency range. src/ripplegw/noise.py:51-84.
    The two columns `fs`, `col` of the text file are arguments (file reading is not modelled);
    `eps` is the constant of `jnp.interp`. -/
def _load_noise (eps : ℝ) (fs : List ℝ) (col : List XR) (asd : Bool) : (ℝ → XR) × (ℝ × ℝ) :=
  let Sns := if asd then col.map fun s => s * s else col
  let Sns := Sns.map zeroToInf
  let f_range := (fs.getD 0 0, fs.getD (fs.length - 1) 0)
  (fun f => interpX eps f fs Sns .pinf .pinf, f_range)

end
end Ripple

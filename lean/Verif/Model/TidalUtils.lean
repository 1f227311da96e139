/-
  Model of src/ripplegw/waveforms/IMRPhenom_tidal_utils.py.
-/
import Verif.Model.Conversions
import Verif.Prelude.Jnp

namespace Ripple

/-- the intrinsic parameter vector `theta = [m1, m2, chi1, chi2, lambda1, lambda2]` of the tidal waveforms -/
@[ext] structure ThetaT where
  m1 : ℝ
  m2 : ℝ
  chi1 : ℝ
  chi2 : ℝ
  lambda1 : ℝ
  lambda2 : ℝ

namespace Tidal
noncomputable section

/-- `universal_relation`. src/ripplegw/waveforms/IMRPhenom_tidal_utils.py:10-27.
    The coefficient list always has five entries. -/
def universal_relation (coeffs : Fin 5 → ℝ) (x : ℝ) : ℝ :=
  coeffs 0 + coeffs 1 * x + coeffs 2 * x ^ 2 + coeffs 3 * x ^ 3 + coeffs 4 * x ^ 4

/-- `_get_quadparam_octparam_low`. src/ripplegw/waveforms/IMRPhenom_tidal_utils.py:53-82. -/
def _get_quadparam_octparam_low (lambda_ : ℝ) : ℝ × ℝ :=
  let oct_coeffs : Fin 5 → ℝ := ![0.003131, 2.071, -0.7152, 0.2458, -0.03309]
  let quadparam : ℝ := 1 + lambda_ * (0.427688866723244 + lambda_ * (-0.324336526985068 + lambda_ *
    0.1107439432180572))
  let log_quadparam : ℝ := Real.log quadparam
  let log_octparam : ℝ := universal_relation oct_coeffs log_quadparam
  let octparam : ℝ := Real.exp log_octparam
  (quadparam, octparam)

/-- `_get_quadparam_octparam_high`. src/ripplegw/waveforms/IMRPhenom_tidal_utils.py:85-114. -/
def _get_quadparam_octparam_high (lambda_ : ℝ) : ℝ × ℝ :=
  let quad_coeffs : Fin 5 → ℝ := ![0.1940, 0.09163, 0.04812, -4.283e-3, 1.245e-4]
  let oct_coeffs : Fin 5 → ℝ := ![0.003131, 2.071, -0.7152, 0.2458, -0.03309]
  let log_lambda : ℝ := Real.log lambda_
  let log_quadparam : ℝ := universal_relation quad_coeffs log_lambda
  let log_octparam : ℝ := universal_relation oct_coeffs log_quadparam
  let quadparam : ℝ := Real.exp log_quadparam
  let octparam : ℝ := Real.exp log_octparam
  (quadparam, octparam)

open Classical in
/-- `get_quadparam_octparam`. src/ripplegw/waveforms/IMRPhenom_tidal_utils.py:30-50.
    Simplification: the nan produced by `log` of a negative quadrupole parameter (only for lambda below about -0.9) is not
    represented; theorems about that value carry the hypothesis `0 ≤ lambda`. -/
def get_quadparam_octparam (lambda_ : ℝ) : ℝ × ℝ :=
  if lambda_ < 1 then _get_quadparam_octparam_low lambda_ else _get_quadparam_octparam_high lambda_

/-- `get_kappa`. src/ripplegw/waveforms/IMRPhenom_tidal_utils.py:117-139. -/
def get_kappa (theta : ThetaT) : ℝ :=
  let m1 : ℝ := theta.m1
  let m2 : ℝ := theta.m2
  let lambda1 : ℝ := theta.lambda1
  let lambda2 : ℝ := theta.lambda2
  let M : ℝ := m1 + m2
  let X1 : ℝ := m1 / M
  let X2 : ℝ := m2 / M
  let term1 : ℝ := (1 + 12 * X2 / X1) * X1 ^ 5 * lambda1
  let term2 : ℝ := (1 + 12 * X1 / X2) * X2 ^ 5 * lambda2
  let kappa : ℝ := 3 / 13 * (term1 + term2)
  kappa

end
end Tidal
end Ripple

/-
  Model of src/ripplegw/waveforms/IMRPhenomD_NRTidalv2.py.
-/
import Verif.Model.PhenomD
import Verif.Model.TidalUtils

namespace Ripple
namespace NRTidalv2
open Tidal
noncomputable section

open Classical in
/-- `get_planck_taper` (elementwise). src/ripplegw/waveforms/IMRPhenomD_NRTidalv2.py:24-46.
    Values are `XR` because the formula divides by `x - y` and `x - yp`, which may be zero. -/
def get_planck_taper (x y : ℝ) : XR :=
  let a : ℝ := 1.2
  let yp : ℝ := a * y
  if x < y then .fin 1
  else if x > yp then .fin 0
  else .fin 1 - .fin 1 / (XR.exp (.fin (yp - y) / .fin (x - y) + .fin (yp - y) / .fin (x - yp)) + .fin 1)

/-- `jnp.nan_to_num`: nan becomes zero, infinities become the largest finite numbers `± big`. -/
def nan_to_num (big : ℝ) : XR → ℝ
  | .fin r => r
  | .pinf => big
  | .ninf => -big
  | .nan => 0

open Classical in
/-- `get_planck_taper_der` (elementwise). src/ripplegw/waveforms/IMRPhenomD_NRTidalv2.py:49-79.
    `big` is the largest finite float. -/
def get_planck_taper_der (big x y : ℝ) : ℝ :=
  let a : ℝ := 1.2
  let yp : ℝ := a * y
  let e := XR.exp (.fin (yp - y) / .fin (x - y) + .fin (yp - y) / .fin (x - yp))
  let tangent_out : XR :=
    if x < y then .fin 0
    else if x > yp then .fin 0
    else e * (.fin (-1 + a) / .fin (x - y) + .fin (-1 + a) / .fin (x - yp) + .fin (-y + yp) / .fin ((x - y) ^ 2)
        + .fin (1.2 * (-y + yp)) / .fin ((x - yp) ^ 2)) / ((e + .fin 1) * (e + .fin 1))
  nan_to_num big tangent_out

/-- The derivative rule registered with `defjvps(None, lambda y_dot, primal_out, x, y: ...)`: tangent of the output for
    tangents `x_dot`, `y_dot` of the arguments; `None` means no contribution from the first argument.
    src/ripplegw/waveforms/IMRPhenomD_NRTidalv2.py:82-84. -/
def planck_taper_jvp (big x y _x_dot y_dot : ℝ) : ℝ := 0 + get_planck_taper_der big x y * y_dot

/-- `get_amp0_lal`. src/ripplegw/waveforms/IMRPhenomD_NRTidalv2.py:87-99. -/
def get_amp0_lal (M distance : ℝ) : ℝ :=
  let amp0 : ℝ := 2 * Real.sqrt (5 / (64 * PI)) * M * MRSUN * M * gt / distance
  amp0

/-- `get_tidal_amplitude`. src/ripplegw/waveforms/IMRPhenomD_NRTidalv2.py:102-137. -/
def get_tidal_amplitude (x : ℝ) (theta : ThetaT) (kappa distance : ℝ) : ℝ :=
  let m1 : ℝ := theta.m1
  let m2 : ℝ := theta.m2
  let M : ℝ := m1 + m2
  let distance : ℝ := distance * m_per_Mpc
  let n1 : ℝ := 4.157407407407407
  let n289 : ℝ := 2519.111111111111
  let d : ℝ := 13477.8073677
  let num : ℝ := 1 + n1 * x + n289 * x ^ ((289 : ℝ) / 100)
  let den : ℝ := 1 + d * x ^ 4
  let poly : ℝ := num / den
  let prefac : ℝ := (-9) * kappa
  let ampT : ℝ := prefac * x ^ ((13 : ℝ) / 4) * poly
  let amp0 : ℝ := get_amp0_lal M distance
  let ampT : ℝ := ampT * (amp0 * 2 * Real.sqrt (PI / 5))
  ampT

/-- `get_tidal_phase`. src/ripplegw/waveforms/IMRPhenomD_NRTidalv2.py:145-201. -/
def get_tidal_phase (x : ℝ) (theta : ThetaT) (kappa : ℝ) : ℝ :=
  let m1 : ℝ := theta.m1
  let m2 : ℝ := theta.m2
  let m1_s : ℝ := m1 * gt
  let m2_s : ℝ := m2 * gt
  let M_s : ℝ := m1_s + m2_s
  let X1 : ℝ := m1_s / M_s
  let X2 : ℝ := m2_s / M_s
  let x_2 : ℝ := x ^ 2
  let x_3 : ℝ := x ^ 3
  let x_3over2 : ℝ := x ^ ((3 : ℝ) / 2)
  let x_5over2 : ℝ := x ^ ((5 : ℝ) / 2)
  let c_Newt : ℝ := 2.4375
  let n_1 : ℝ := -12.615214237993088
  let n_3over2 : ℝ := 19.0537346970349
  let n_2 : ℝ := -21.166863146081035
  let n_5over2 : ℝ := 90.55082156324926
  let n_3 : ℝ := -60.25357801943598
  let d_1 : ℝ := -15.111207827736678
  let d_3over2 : ℝ := 22.195327350624694
  let d_2 : ℝ := 8.064109635305156
  let num : ℝ := 1 + n_1 * x + n_3over2 * x_3over2 + n_2 * x_2 + n_5over2 * x_5over2 + n_3 * x_3
  let den : ℝ := 1 + d_1 * x + d_3over2 * x_3over2 + d_2 * x_2
  let ratio : ℝ := num / den
  let psi_T : ℝ := (-kappa) * c_Newt / (X1 * X2) * x_5over2
  let psi_T : ℝ := psi_T * ratio
  psi_T

/-- `get_spin_phase_correction`. src/ripplegw/waveforms/IMRPhenomD_NRTidalv2.py:204-284. -/
def get_spin_phase_correction (x : ℝ) (theta : ThetaT) : ℝ :=
  let m1 : ℝ := theta.m1
  let m2 : ℝ := theta.m2
  let chi1 : ℝ := theta.chi1
  let chi2 : ℝ := theta.chi2
  let m1_s : ℝ := m1 * gt
  let m2_s : ℝ := m2 * gt
  let M_s : ℝ := m1_s + m2_s
  let eta : ℝ := m1_s * m2_s / M_s ^ 2
  let X1 : ℝ := m1_s / M_s
  let X1sq : ℝ := X1 * X1
  let chi1_sq : ℝ := chi1 * chi1
  let X2 : ℝ := m2_s / M_s
  let X2sq : ℝ := X2 * X2
  let chi2_sq : ℝ := chi2 * chi2
  let qo1 := get_quadparam_octparam theta.lambda1
  let qo2 := get_quadparam_octparam theta.lambda2
  let quadparam1 : ℝ := qo1.1 - 1
  let quadparam2 : ℝ := qo2.1 - 1
  let octparam1 : ℝ := qo1.2 - 1
  let octparam2 : ℝ := qo2.2 - 1
  let SS_2 : ℝ := (-50) * quadparam1 * chi1_sq * X1sq - 50 * quadparam2 * chi2_sq * X2sq
  let SS_3 : ℝ := 5 / 84 * (9407 + 8218 * X1 - 2016 * X1sq) * quadparam1 * X1sq * chi1_sq + 5 / 84 * (9407 + 8218 * X2
    - 2016 * X2sq) * quadparam2 * X2sq * chi2_sq
  let SS_3p5 : ℝ := (-400) * PI * quadparam1 * chi1_sq * X1sq - 400 * PI * quadparam2 * chi2_sq * X2sq
  let SSS_3p5 : ℝ := 10 * ((X1sq + 308 / 3 * X1) * chi1 + (X2sq - 89 / 3 * X2) * chi2) * quadparam1 * X1sq * chi1_sq +
    10 * ((X2sq + 308 / 3 * X2) * chi2 + (X1sq - 89 / 3 * X1) * chi1) * quadparam2 * X2sq * chi2_sq - 440 * octparam1 *
    X1 * X1sq * chi1_sq * chi1 - 440 * octparam2 * X2 * X2sq * chi2_sq * chi2
  let prefac : ℝ := 3 / (128 * eta)
  let psi_SS : ℝ := prefac * (SS_2 * x ^ (-((1 : ℝ) / 2)) + SS_3 * x ^ ((1 : ℝ) / 2) + (SS_3p5 + SSS_3p5) * x)
  psi_SS

/-- `_get_merger_frequency`. src/ripplegw/waveforms/IMRPhenomD_NRTidalv2.py:287-328.
    The default `kappa=None` branch (`kappa = get_kappa(theta)`) is not taken by the generator, which passes `kappa`. -/
def _get_merger_frequency (theta : ThetaT) (kappa : ℝ) : ℝ :=
  let m1 : ℝ := theta.m1
  let m2 : ℝ := theta.m2
  let M : ℝ := m1 + m2
  let m1_s : ℝ := m1 * gt
  let m2_s : ℝ := m2 * gt
  let q : ℝ := m1_s / m2_s
  let kappa_2 : ℝ := kappa * kappa
  let a_0 : ℝ := 0.3586
  let n_1 : ℝ := 3.35411203e-2
  let n_2 : ℝ := 4.31460284e-5
  let d_1 : ℝ := 7.54224145e-2
  let d_2 : ℝ := 2.23626859e-4
  let num : ℝ := 1 + n_1 * kappa + n_2 * kappa_2
  let den : ℝ := 1 + d_1 * kappa + d_2 * kappa_2
  let Q_0 : ℝ := a_0 * q ^ (-((1 : ℝ) / 2))
  let Momega_merger : ℝ := Q_0 * (num / den)
  let fHz_merger : ℝ := Momega_merger / (M * gt) / TWO_PI
  fHz_merger

/-- finite part of a float; the taper is always finite when the merger frequency is positive (theorem C44) -/
def finPart : XR → ℝ
  | .fin r => r
  | _ => 0

/-- `_gen_IMRPhenomD_NRTidalv2`. src/ripplegw/waveforms/IMRPhenomD_NRTidalv2.py:331-381.
    `distance` is `theta_extrinsic[0]`, the only extrinsic parameter used. -/
def _gen_IMRPhenomD_NRTidalv2 (f : List ℝ) (theta_intrinsic : ThetaT) (distance : ℝ) (bbh_amp bbh_psi : List ℝ)
    (no_taper : Bool) : List ℂ :=
  let m1_s : ℝ := theta_intrinsic.m1 * gt
  let m2_s : ℝ := theta_intrinsic.m2 * gt
  let M_s : ℝ := m1_s + m2_s
  let x : List ℝ := f.map fun f => (PI * M_s * f) ^ ((2 : ℝ) / 3)
  let kappa : ℝ := get_kappa theta_intrinsic
  let A_T : List ℝ := x.map fun x => get_tidal_amplitude x theta_intrinsic kappa distance
  let f_merger : ℝ := _get_merger_frequency theta_intrinsic kappa
  let A_P : List ℝ := if no_taper then f.map fun _ => 1 else f.map fun f => finPart (get_planck_taper f f_merger)
  let psi_T : List ℝ := x.map fun x => get_tidal_phase x theta_intrinsic kappa
  let psi_SS : List ℝ := x.map fun x => get_spin_phase_correction x theta_intrinsic
  let amp : List ℝ := List.zipWith (fun p a => p * a) A_P (List.zipWith (fun a t => a + t) bbh_amp A_T)
  let psi : List ℝ := List.zipWith (fun p s => p + s) (List.zipWith (fun p t => p + t) bbh_psi psi_T) psi_SS
  List.zipWith (fun (a p : ℝ) => (a : ℂ) * Complex.exp (Complex.I * (-p : ℝ))) amp psi

open PhenomD in
/-- `gen_IMRPhenomD_NRTidalv2`. src/ripplegw/waveforms/IMRPhenomD_NRTidalv2.py:384-461. -/
def gen_IMRPhenomD_NRTidalv2 (q : QNM) (f : List ℝ) (params : List ℝ) (f_ref : ℝ) (use_lambda_tildes no_taper : Bool) :
    List ℂ :=
  let ms := Mc_eta_to_ms (Jnp.index params 0) (Jnp.index params 1)
  let lambdas : ℝ × ℝ :=
    if use_lambda_tildes then lambda_tildes_to_lambdas (Jnp.index params 4) (Jnp.index params 5) ms.1 ms.2
    else (Jnp.index params 4, Jnp.index params 5)
  let chi1 : ℝ := Jnp.index params 2
  let chi2 : ℝ := Jnp.index params 3
  let theta_intrinsic : ThetaT := ⟨ms.1, ms.2, chi1, chi2, lambdas.1, lambdas.2⟩
  let theta_extrinsic : List ℝ := params.drop 6
  let bbh_theta_intrinsic : Theta := ⟨ms.1, ms.2, chi1, chi2⟩
  let coeffs := get_coeffs bbh_theta_intrinsic
  let M_s : ℝ := (bbh_theta_intrinsic.m1 + bbh_theta_intrinsic.m2) * gt
  let transition_freqs := get_transition_frequencies q bbh_theta_intrinsic (coeffs 5) (coeffs 6)
  let f4 := transition_freqs.f4
  let f_RD := transition_freqs.f_RD
  let f_damp := transition_freqs.f_damp
  let t0 := deriv (fun x => get_IIb_raw_phase x bbh_theta_intrinsic coeffs f_RD f_damp) (f4 * M_s)
  let Psi_ref := Phase f_ref bbh_theta_intrinsic coeffs transition_freqs
  let Mf_ref := f_ref * M_s
  let fcut_true : ℝ :=
    if fM_CUT / M_s > Jnp.index f (-1) then fM_CUT / M_s
    else Jnp.index f ((Jnp.argmin (f.map fun x => |x - fM_CUT / M_s|) : ℤ) - 1)
  let Psi : List ℝ := f.map fun f =>
    let Psi := Phase f bbh_theta_intrinsic coeffs transition_freqs
    let Psi := Psi - (t0 * (f * M_s - Mf_ref) + Psi_ref)
    let ext_phase_contrib := 2 * PI * f * Jnp.index theta_extrinsic 1 - 2 * Jnp.index theta_extrinsic 2
    let Psi := Psi + ext_phase_contrib
    Psi * Jnp.heaviside (fcut_true - f) 0 + 2 * PI * Jnp.heaviside (f - fcut_true) 1
  let A := Amp f bbh_theta_intrinsic coeffs transition_freqs (Jnp.index theta_extrinsic 0)
  _gen_IMRPhenomD_NRTidalv2 f theta_intrinsic (Jnp.index theta_extrinsic 0) A Psi no_taper

/-- `gen_IMRPhenomD_NRTidalv2_hphc`. src/ripplegw/waveforms/IMRPhenomD_NRTidalv2.py:464-501. -/
def gen_IMRPhenomD_NRTidalv2_hphc (q : QNM) (f : List ℝ) (params : List ℝ) (f_ref : ℝ)
    (use_lambda_tildes no_taper : Bool) : List ℂ × List ℂ :=
  let iota : ℝ := Jnp.index params (-1)
  let h0 := gen_IMRPhenomD_NRTidalv2 q f params.dropLast f_ref use_lambda_tildes no_taper
  (h0.map fun h => h * ((1 / 2 * (1 + Real.cos iota ^ 2) : ℝ) : ℂ),
   h0.map fun h => -Complex.I * h * (Real.cos iota : ℂ))

end
end NRTidalv2
end Ripple

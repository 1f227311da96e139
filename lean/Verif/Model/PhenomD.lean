/-
  Model of src/ripplegw/waveforms/IMRPhenomD.py.
-/
import Verif.Model.PhenomDUtils
import Mathlib.Analysis.Calculus.Deriv.Basic
import Mathlib.Analysis.SpecialFunctions.Trigonometric.Arctan

namespace Ripple
namespace PhenomD
noncomputable section

/-- the post-Newtonian phase coefficients computed by `get_inspiral_phase` -/
structure PhasePN where
  phi0 : ℝ
  phi1 : ℝ
  phi2 : ℝ
  phi3 : ℝ
  phi4 : ℝ
  phi5 : ℝ
  phi5_log : ℝ
  phi6 : ℝ
  phi6_log : ℝ
  phi7 : ℝ

/-- First part of `get_inspiral_phase`: the frequency independent coefficients.
    src/ripplegw/waveforms/IMRPhenomD.py:25-134 (split off so that the coefficients can be referred to). -/
def get_inspiral_phase_coeffs (theta : Theta) : PhasePN :=
  let m1 : ℝ := theta.m1
  let m2 : ℝ := theta.m2
  let chi1 : ℝ := theta.chi1
  let chi2 : ℝ := theta.chi2
  let m1_s : ℝ := m1 * gt
  let m2_s : ℝ := m2 * gt
  let M_s : ℝ := m1_s + m2_s
  let eta : ℝ := m1_s * m2_s / M_s ^ 2
  let m1M : ℝ := m1_s / M_s
  let m2M : ℝ := m2_s / M_s
  let phi0 : ℝ := 1
  let phi1 : ℝ := 0
  let phi2 : ℝ := 5 * (74.3 / 8.4 + 11 * eta) / 9
  let phi3 : ℝ := (-16) * PI + (m1M * (25 + 38 / 3 * m1M) * chi1 + m2M * (25 + 38 / 3 * m2M) * chi2)
  let phi4 : ℝ := 5 * (3058.673 / 7.056 + 5429 / 7 * eta + 617 * eta * eta) / 72
  let phi4 : ℝ := phi4 + (247 / 4.8 * eta * chi1 * chi2 + (-721) / 4.8 * eta * chi1 * chi2 + ((-720) / 9.6 * m1M * m1M
    + 1 / 9.6 * m1M * m1M) * chi1 * chi1 + ((-720) / 9.6 * m2M * m2M + 1 / 9.6 * m2M * m2M) * chi2 * chi2 + (240 / 9.6 *
    m1M * m1M + (-7) / 9.6 * m1M * m1M) * chi1 * chi1 + (240 / 9.6 * m2M * m2M + (-7) / 9.6 * m2M * m2M) * chi2 * chi2)
  let phi5 : ℝ := 5 / 9 * (772.9 / 8.4 - 13 * eta) * PI
  let phi5 : ℝ := phi5 + ((-m1M) * (1391.5 / 8.4 - m1M * (1 - m1M) * 10 / 3 + m1M * (1276 / 8.1 + m1M * (1 - m1M) *
    170 / 9)) * chi1 + (-m2M) * (1391.5 / 8.4 - m2M * (1 - m2M) * 10 / 3 + m2M * (1276 / 8.1 + m2M * (1 - m2M) * 170 /
    9)) * chi2)
  let phi5_log : ℝ := 5 / 3 * (772.9 / 8.4 - 13 * eta) * PI
  let phi5_log : ℝ := phi5_log + 3 * ((-m1M) * (1391.5 / 8.4 - m1M * (1 - m1M) * 10 / 3 + m1M * (1276 / 8.1 + m1M * (1
    - m1M) * 170 / 9)) * chi1 + (-m2M) * (1391.5 / 8.4 - m2M * (1 - m2M) * 10 / 3 + m2M * (1276 / 8.1 + m2M * (1 - m2M)
    * 170 / 9)) * chi2)
  let phi6 : ℝ := 11583.231236531 / 4.694215680 - 640 / 3 * PI * PI - 684.8 / 2.1 * EulerGamma + eta *
    ((-15737.765635) / 3.048192 + 225.5 / 1.2 * PI * PI) + eta * eta * 76.055 / 1.728 - eta * eta * eta * 127.825 /
    1.296 + (-684.8) / 2.1 * Real.log 4
  let phi6 : ℝ := phi6 + (PI * m1M * (1490 / 3 + m1M * 260) * chi1 + PI * m2M * (1490 / 3 + m2M * 260) * chi2)
  let phi6_log : ℝ := (-684.8) / 2.1
  let phi7 : ℝ := PI * (770.96675 / 2.54016 + 378.515 / 1.512 * eta - 740.45 / 7.56 * eta * eta)
  let phi7 : ℝ := phi7 + (m1M * ((-17097.8035) / 4.8384 + eta * 28764.25 / 6.72 + eta * eta * 47.35 / 1.44 + m1M *
    ((-7189.233785) / 1.524096 + eta * 458.555 / 3.024 - eta * eta * 534.5 / 7.2)) * chi1 + m2M * ((-17097.8035) /
    4.8384 + eta * 28764.25 / 6.72 + eta * eta * 47.35 / 1.44 + m2M * ((-7189.233785) / 1.524096 + eta * 458.555 / 3.024
    - eta * eta * 534.5 / 7.2)) * chi2)
  ⟨phi0, phi1, phi2, phi3, phi4, phi5, phi5_log, phi6, phi6_log, phi7⟩

/-- `phi_TF2` of `get_inspiral_phase`. src/ripplegw/waveforms/IMRPhenomD.py:136-150. -/
def phi_TF2 (fM_s : ℝ) (theta : Theta) : ℝ :=
  let m1_s : ℝ := theta.m1 * gt
  let m2_s : ℝ := theta.m2 * gt
  let M_s : ℝ := m1_s + m2_s
  let eta : ℝ := m1_s * m2_s / M_s ^ 2
  let p := get_inspiral_phase_coeffs theta
  let v : ℝ := (PI * fM_s) ^ ((1 : ℝ) / 3)
  (p.phi0 * (PI * fM_s) ^ (-((5 : ℝ) / 3)) + p.phi1 * (PI * fM_s) ^ (-((4 : ℝ) / 3)) + p.phi2 * (PI *
    fM_s) ^ (-1 : ℤ) + p.phi3 * (PI * fM_s) ^ (-((2 : ℝ) / 3)) + p.phi4 * (PI * fM_s) ^ (-((1 : ℝ) / 3)) + p.phi5_log *
    Real.log v + p.phi5 + p.phi6_log * Real.log v * (PI * fM_s) ^ ((1 : ℝ) / 3) + p.phi6 * (PI * fM_s) ^ ((1 : ℝ) / 3) + p.phi7
    * (PI * fM_s) ^ ((2 : ℝ) / 3)) * (3 / (128 * eta)) - PI / 4

/-- `get_inspiral_phase`. src/ripplegw/waveforms/IMRPhenomD.py:21-162. -/
def get_inspiral_phase (fM_s : ℝ) (theta : Theta) (coeffs : Fin 19 → ℝ) : ℝ :=
  let m1_s : ℝ := theta.m1 * gt
  let m2_s : ℝ := theta.m2 * gt
  let M_s : ℝ := m1_s + m2_s
  let eta : ℝ := m1_s * m2_s / M_s ^ 2
  phi_TF2 fM_s theta + (coeffs 7 * fM_s + 3 / 4 * coeffs 8 * fM_s ^ ((4 : ℝ) / 3) + 3 / 5 * coeffs 9 * fM_s ^
    ((5 : ℝ) / 3) + 1 / 2 * coeffs 10 * fM_s ^ 2) / eta

/-- `get_IIa_raw_phase`. src/ripplegw/waveforms/IMRPhenomD.py:165-176. -/
def get_IIa_raw_phase (fM_s : ℝ) (theta : Theta) (coeffs : Fin 19 → ℝ) : ℝ :=
  let m1 : ℝ := theta.m1
  let m2 : ℝ := theta.m2
  let m1_s : ℝ := m1 * gt
  let m2_s : ℝ := m2 * gt
  let M_s : ℝ := m1_s + m2_s
  let eta : ℝ := m1_s * m2_s / M_s ^ 2
  let phi_IIa_raw : ℝ := (coeffs 11 * fM_s + coeffs 12 * Real.log fM_s - coeffs 13 * fM_s ^ (-3 : ℤ) / 3) / eta
  phi_IIa_raw

/-- `get_IIb_raw_phase`. src/ripplegw/waveforms/IMRPhenomD.py:179-196. -/
def get_IIb_raw_phase (fM_s : ℝ) (theta : Theta) (coeffs : Fin 19 → ℝ) (f_RD f_damp : ℝ) : ℝ :=
  let m1 : ℝ := theta.m1
  let m2 : ℝ := theta.m2
  let m1_s : ℝ := m1 * gt
  let m2_s : ℝ := m2 * gt
  let M_s : ℝ := m1_s + m2_s
  let eta : ℝ := m1_s * m2_s / M_s ^ 2
  let f_RDM_s : ℝ := f_RD * M_s
  let f_dampM_s : ℝ := f_damp * M_s
  let phi_IIb_raw : ℝ := (coeffs 14 * fM_s - coeffs 15 * fM_s ^ (-1 : ℤ) + 4 * coeffs 16 * fM_s ^ ((3 : ℝ) / 4) / 3 +
    coeffs 17 * Real.arctan ((fM_s - coeffs 18 * f_RDM_s) / f_dampM_s)) / eta
  phi_IIb_raw

/-- `get_Amp0`. src/ripplegw/waveforms/IMRPhenomD.py:199-203. -/
def get_Amp0 (fM_s eta : ℝ) : ℝ :=
  let Amp0 : ℝ := (2 / 3 * eta) ^ ((1 : ℝ) / 2) * fM_s ^ (-((7 : ℝ) / 6)) * PI ^ (-((1 : ℝ) / 6))
  Amp0

/-- the inspiral amplitude coefficients computed by `get_inspiral_Amp` -/
structure AmpPN where
  A0 : ℝ
  A2 : ℝ
  A3 : ℝ
  A4 : ℝ
  A5 : ℝ
  A6 : ℝ

/-- First part of `get_inspiral_Amp`: frequency independent coefficients.
    src/ripplegw/waveforms/IMRPhenomD.py:209-306 (split off so that the coefficients can be referred to). -/
def get_inspiral_Amp_coeffs (theta : Theta) : AmpPN :=
  let m1 : ℝ := theta.m1
  let m2 : ℝ := theta.m2
  let chi1 : ℝ := theta.chi1
  let chi2 : ℝ := theta.chi2
  let m1_s : ℝ := m1 * gt
  let m2_s : ℝ := m2 * gt
  let M_s : ℝ := m1_s + m2_s
  let eta : ℝ := m1_s * m2_s / M_s ^ 2
  let eta2 : ℝ := eta * eta
  let eta3 : ℝ := eta * eta2
  let Seta : ℝ := Real.sqrt (1 - 4 * eta)
  let SetaPlus1 : ℝ := 1 + Seta
  let chi12 : ℝ := chi1 * chi1
  let chi22 : ℝ := chi2 * chi2
  let A0 : ℝ := 1
  let A2 : ℝ := (-969 + 1804 * eta) * PI ^ ((2 : ℝ) / 3) / 672
  let A3 : ℝ := (chi1 * (81 * SetaPlus1 - 44 * eta) + chi2 * (81 - 81 * Seta - 44 * eta)) * PI / 48
  let A4 : ℝ := (-27312085 - 10287648 * chi22 - 10287648 * chi12 * SetaPlus1 + 10287648 * chi22 * Seta + 24 *
    (-1975055 + 857304 * chi12 - 994896 * chi1 * chi2 + 857304 * chi22) * eta + 35371056 * eta2) * PI ^ ((4 : ℝ) / 3) /
    8.128512e6
  let A5 : ℝ := PI ^ ((5 : ℝ) / 3) * (chi2 * ((-285197) * (-1 + Seta) + 4 * (-91902 + 1579 * Seta) * eta - 35632 *
    eta2) + chi1 * (285197 * SetaPlus1 - 4 * (91902 + 1579 * Seta) * eta - 35632 * eta2) + 42840 * (-1 + 4 * eta) * PI)
    / 32256
  let A6 : ℝ := (-(PI ^ 2 * ((-336) * (-3248849057 + 2943675504 * chi12 - 3339284256 * chi1 * chi2 + 2943675504 *
    chi22) * eta2 - 324322727232 * eta3 - 7 * (-177520268561 + 107414046432 * chi22 + 107414046432 * chi12 * SetaPlus1 -
    107414046432 * chi22 * Seta + 11087290368 * (chi1 + chi2 + chi1 * Seta - chi2 * Seta) * PI) + 12 * eta *
    (-545384828789 - 176491177632 * chi1 * chi2 + 202603761360 * chi22 + 77616 * chi12 * (2610335 + 995766 * Seta) -
    77287373856 * chi22 * Seta + 5841690624 * (chi1 + chi2) * PI + 21384760320 * PI ^ 2)))) / 6.0085960704e10
  ⟨A0, A2, A3, A4, A5, A6⟩

/-- `get_inspiral_Amp`. src/ripplegw/waveforms/IMRPhenomD.py:206-326. -/
def get_inspiral_Amp (fM_s : ℝ) (theta : Theta) (coeffs : Fin 19 → ℝ) : ℝ :=
  let p := get_inspiral_Amp_coeffs theta
  let A7 : ℝ := coeffs 0
  let A8 : ℝ := coeffs 1
  let A9 : ℝ := coeffs 2
  p.A0 + p.A2 * fM_s ^ ((2 : ℝ) / 3) + p.A3 * fM_s + p.A4 * fM_s ^ ((4 : ℝ) / 3) + p.A5 * fM_s ^ ((5 : ℝ) /
    3) + p.A6 * fM_s ^ 2 + A7 * fM_s ^ ((7 : ℝ) / 3) + A8 * fM_s ^ ((8 : ℝ) / 3) + A9 * fM_s ^ 3

/-- `get_IIb_Amp`. src/ripplegw/waveforms/IMRPhenomD.py:363-381. -/
def get_IIb_Amp (fM_s : ℝ) (theta : Theta) (coeffs : Fin 19 → ℝ) (f_RD f_damp : ℝ) : ℝ :=
  let m1 : ℝ := theta.m1
  let m2 : ℝ := theta.m2
  let m1_s : ℝ := m1 * gt
  let m2_s : ℝ := m2 * gt
  let M_s : ℝ := m1_s + m2_s
  let gamma1 : ℝ := coeffs 4
  let gamma2 : ℝ := coeffs 5
  let gamma3 : ℝ := coeffs 6
  let fDM : ℝ := f_damp * M_s
  let fRD : ℝ := f_RD * M_s
  let fDMgamma3 : ℝ := fDM * gamma3
  let fminfRD : ℝ := fM_s - fRD
  let Amp_IIb : ℝ := Real.exp ((-fminfRD) * gamma2 / fDMgamma3) * (fDMgamma3 * gamma1) / (fminfRD ^ 2 + fDMgamma3 ^ 2)
  Amp_IIb

/-- `get_IIa_Amp`. src/ripplegw/waveforms/IMRPhenomD.py:329-360.  `jax.value_and_grad` is value and `deriv`. -/
def get_IIa_Amp (fM_s : ℝ) (theta : Theta) (coeffs : Fin 19 → ℝ) (f1 f3 f_RD f_damp : ℝ) : ℝ :=
  let m1_s : ℝ := theta.m1 * gt
  let m2_s : ℝ := theta.m2 * gt
  let M_s : ℝ := m1_s + m2_s
  let f2 : ℝ := (f1 + f3) / 2
  let v1 := get_inspiral_Amp (f1 * M_s) theta coeffs
  let d1 := deriv (fun x => get_inspiral_Amp x theta coeffs) (f1 * M_s)
  let v3 := get_IIb_Amp (f3 * M_s) theta coeffs f_RD f_damp
  let d3 := deriv (fun x => get_IIb_Amp x theta coeffs f_RD f_damp) (f3 * M_s)
  let delta0 := get_delta0 (f1 * M_s) (f2 * M_s) (f3 * M_s) v1 (coeffs 3) v3 d1 d3
  let delta1 := get_delta1 (f1 * M_s) (f2 * M_s) (f3 * M_s) v1 (coeffs 3) v3 d1 d3
  let delta2 := get_delta2 (f1 * M_s) (f2 * M_s) (f3 * M_s) v1 (coeffs 3) v3 d1 d3
  let delta3 := get_delta3 (f1 * M_s) (f2 * M_s) (f3 * M_s) v1 (coeffs 3) v3 d1 d3
  let delta4 := get_delta4 (f1 * M_s) (f2 * M_s) (f3 * M_s) v1 (coeffs 3) v3 d1 d3
  delta0 + delta1 * fM_s + delta2 * fM_s ^ 2 + delta3 * fM_s ^ 3 + delta4 * fM_s ^ 4

/-- `Phase` at one frequency (the Python function is applied elementwise to an array, and to the scalar `f_ref`).
    src/ripplegw/waveforms/IMRPhenomD.py:385-459. -/
def Phase (f : ℝ) (theta : Theta) (coeffs : Fin 19 → ℝ) (transition_freqs : TransFreqs) : ℝ :=
  let m1_s : ℝ := theta.m1 * gt
  let m2_s : ℝ := theta.m2 * gt
  let M_s : ℝ := m1_s + m2_s
  let f1 := transition_freqs.f1
  let f2 := transition_freqs.f2
  let f_RD := transition_freqs.f_RD
  let f_damp := transition_freqs.f_damp
  let phi_Ins := get_inspiral_phase (f * M_s) theta coeffs
  let phi_Ins_f1 := get_inspiral_phase (f1 * M_s) theta coeffs
  let dphi_Ins_f1 := deriv (fun x => get_inspiral_phase x theta coeffs) (f1 * M_s)
  let phi_IIa_f1 := get_IIa_raw_phase (f1 * M_s) theta coeffs
  let dphi_IIa_f1 := deriv (fun x => get_IIa_raw_phase x theta coeffs) (f1 * M_s)
  let beta1_correction := dphi_Ins_f1 - dphi_IIa_f1
  let beta0 := phi_Ins_f1 - beta1_correction * (f1 * M_s) - phi_IIa_f1
  let phi_IIa_func := fun fM_s : ℝ => get_IIa_raw_phase fM_s theta coeffs + beta1_correction * fM_s
  let phi_IIa := phi_IIa_func (f * M_s) + beta0
  let phi_IIa_f2 := phi_IIa_func (f2 * M_s)
  let dphi_IIa_f2 := deriv phi_IIa_func (f2 * M_s)
  let phi_IIb_f2 := get_IIb_raw_phase (f2 * M_s) theta coeffs f_RD f_damp
  let dphi_IIb_f2 := deriv (fun x => get_IIb_raw_phase x theta coeffs f_RD f_damp) (f2 * M_s)
  let a1_correction := dphi_IIa_f2 - dphi_IIb_f2
  let a0 := phi_IIa_f2 + beta0 - a1_correction * (f2 * M_s) - phi_IIb_f2
  let phi_IIb := get_IIb_raw_phase (f * M_s) theta coeffs f_RD f_damp + a0 + a1_correction * (f * M_s)
  phi_Ins * Jnp.heaviside (f1 - f) 0.5
    + Jnp.heaviside (f - f1) 0.5 * phi_IIa * Jnp.heaviside (f2 - f) 0.5
    + phi_IIb * Jnp.heaviside (f - f2) 0.5

/-- `fM_CUT`. src/ripplegw/waveforms/IMRPhenomD_QNMdata.py:3. -/
def fM_CUT : ℝ := 0.2

/-- `Amp`. src/ripplegw/waveforms/IMRPhenomD.py:463-514.  `f` is the whole frequency grid: the cutoff
    `fcut_true` depends on it.  Simplification: an empty grid gives the empty list. -/
def Amp (f : List ℝ) (theta : Theta) (coeffs : Fin 19 → ℝ) (transition_frequencies : TransFreqs) (D : ℝ) : List ℝ :=
  let m1_s : ℝ := theta.m1 * gt
  let m2_s : ℝ := theta.m2 * gt
  let M_s : ℝ := m1_s + m2_s
  let eta : ℝ := m1_s * m2_s / M_s ^ 2
  let f3 := transition_frequencies.f3
  let f4 := transition_frequencies.f4
  let f_RD := transition_frequencies.f_RD
  let f_damp := transition_frequencies.f_damp
  let fcut_true : ℝ :=
    if fM_CUT / M_s > Jnp.index f (-1) then fM_CUT / M_s
    else Jnp.index f ((Jnp.argmin (f.map fun x => |x - fM_CUT / M_s|) : ℤ) - 1)
  f.map fun f =>
    let Amp_Ins := get_inspiral_Amp (f * M_s) theta coeffs
    let Amp_IIa := get_IIa_Amp (f * M_s) theta coeffs f3 f4 f_RD f_damp
    let Amp_IIb := get_IIb_Amp (f * M_s) theta coeffs f_RD f_damp
    let Amp :=
      Amp_Ins * Jnp.heaviside (f3 - f) 0.5
        + Jnp.heaviside (f - f3) 0.5 * Amp_IIa * Jnp.heaviside (f4 - f) 0.5
        + Jnp.heaviside (f - f4) 0.5 * Amp_IIb * Jnp.heaviside (fcut_true - f) 0
        + 0 * Jnp.heaviside (f - fcut_true) 1
    let Amp0 := get_Amp0 (f * M_s) eta * (2 * Real.sqrt (5 / (64 * PI)))
    let dist_s := D * m_per_Mpc / C
    Amp0 * Amp * M_s ^ 2 / dist_s

/-- `_gen_IMRPhenomD`. src/ripplegw/waveforms/IMRPhenomD.py:518-550.
    `theta_extrinsic` = (D, tc, phic). -/
def _gen_IMRPhenomD (q : QNM) (f : List ℝ) (theta_intrinsic : Theta) (D tc phic : ℝ) (coeffs : Fin 19 → ℝ)
    (f_ref : ℝ) : List ℂ :=
  let M_s : ℝ := (theta_intrinsic.m1 + theta_intrinsic.m2) * gt
  let transition_freqs := get_transition_frequencies q theta_intrinsic (coeffs 5) (coeffs 6)
  let f4 := transition_freqs.f4
  let f_RD := transition_freqs.f_RD
  let f_damp := transition_freqs.f_damp
  let t0 := deriv (fun x => get_IIb_raw_phase x theta_intrinsic coeffs f_RD f_damp) (f4 * M_s)
  let Mf_ref := f_ref * M_s
  let Psi_ref := Phase f_ref theta_intrinsic coeffs transition_freqs
  let fcut_true : ℝ :=
    if fM_CUT / M_s > Jnp.index f (-1) then fM_CUT / M_s
    else Jnp.index f ((Jnp.argmin (f.map fun x => |x - fM_CUT / M_s|) : ℤ) - 1)
  let Psi : List ℝ := f.map fun f =>
    let Psi := Phase f theta_intrinsic coeffs transition_freqs
    let Psi := Psi - (t0 * (f * M_s - Mf_ref) + Psi_ref)
    let ext_phase_contrib := 2 * PI * f * tc - 2 * phic
    let Psi := Psi + ext_phase_contrib
    Psi * Jnp.heaviside (fcut_true - f) 0 + 2 * PI * Jnp.heaviside (f - fcut_true) 1
  let A := Amp f theta_intrinsic coeffs transition_freqs D
  List.zipWith (fun (a p : ℝ) => (a : ℂ) * Complex.exp (Complex.I * (-p : ℝ))) A Psi

/-- `gen_IMRPhenomD`. src/ripplegw/waveforms/IMRPhenomD.py:553-579.
    `params` is a JAX array: indices out of range clamp. -/
def gen_IMRPhenomD (q : QNM) (f : List ℝ) (params : List ℝ) (f_ref : ℝ) : List ℂ :=
  let ms := Mc_eta_to_ms (Jnp.index params 0) (Jnp.index params 1)
  let theta_intrinsic : Theta := ⟨ms.1, ms.2, Jnp.index params 2, Jnp.index params 3⟩
  let coeffs := get_coeffs theta_intrinsic
  _gen_IMRPhenomD q f theta_intrinsic (Jnp.index params 4) (Jnp.index params 5) (Jnp.index params 6) coeffs f_ref

/-- `gen_IMRPhenomD_hphc`. src/ripplegw/waveforms/IMRPhenomD.py:582-609. -/
def gen_IMRPhenomD_hphc (q : QNM) (f : List ℝ) (params : List ℝ) (f_ref : ℝ) : List ℂ × List ℂ :=
  let iota : ℝ := Jnp.index params 7
  let h0 := gen_IMRPhenomD q f params f_ref
  (h0.map fun h => h * ((1 / 2 * (1 + Real.cos iota ^ 2) : ℝ) : ℂ),
   h0.map fun h => -Complex.I * h * (Real.cos iota : ℂ))

end
end PhenomD
end Ripple

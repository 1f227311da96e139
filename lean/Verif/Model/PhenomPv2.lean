/-
  Model of src/ripplegw/waveforms/IMRPhenomPv2.py.
-/
import Verif.Model.PhenomPv2Utils

namespace Ripple
namespace Pv2
noncomputable section

/-- `PhenomPCoreTwistUp` at one frequency (the Python function is applied elementwise to arrays).
    src/ripplegw/waveforms/IMRPhenomPv2.py:16-115.  `Y2m` is the 5-component list of harmonics. -/
def PhenomPCoreTwistUp (fHz : ℝ) (hPhenom : ℂ) (eta chi1_l chi2_l chip M : ℝ) (angcoeffs : AngCoeffs)
    (Y2mA : Fin 5 → ℂ) (alphaoffset epsilonoffset : ℝ) : ℂ × ℂ :=
  let f : ℝ := fHz * gt * M
  let q : ℝ := (1 + Real.sqrt (1 - 4 * eta) - 2 * eta) / (2 * eta)
  let m1 : ℝ := 1 / (1 + q)
  let m2 : ℝ := q / (1 + q)
  let Sperp : ℝ := chip * (m2 * m2)
  let SL : ℝ := chi1_l * m1 * m1 + chi2_l * m2 * m2
  let omega : ℝ := PI * f
  let logomega : ℝ := Real.log omega
  let omega_cbrt : ℝ := omega ^ ((1 : ℝ) / 3)
  let omega_cbrt2 : ℝ := omega_cbrt * omega_cbrt
  let alpha : ℝ :=
    (angcoeffs.alphacoeff1 / omega
      + angcoeffs.alphacoeff2 / omega_cbrt2
      + angcoeffs.alphacoeff3 / omega_cbrt
      + angcoeffs.alphacoeff4 * logomega
      + angcoeffs.alphacoeff5 * omega_cbrt) - alphaoffset
  let epsilon : ℝ :=
    (angcoeffs.epsiloncoeff1 / omega
      + angcoeffs.epsiloncoeff2 / omega_cbrt2
      + angcoeffs.epsiloncoeff3 / omega_cbrt
      + angcoeffs.epsiloncoeff4 * logomega
      + angcoeffs.epsiloncoeff5 * omega_cbrt) - epsilonoffset
  let cBetah : ℝ := (WignerdCoefficients omega_cbrt SL eta Sperp).1
  let sBetah : ℝ := (WignerdCoefficients omega_cbrt SL eta Sperp).2
  let cBetah2 : ℝ := cBetah * cBetah
  let cBetah3 : ℝ := cBetah2 * cBetah
  let cBetah4 : ℝ := cBetah3 * cBetah
  let sBetah2 : ℝ := sBetah * sBetah
  let sBetah3 : ℝ := sBetah2 * sBetah
  let sBetah4 : ℝ := sBetah3 * sBetah
  let cexp_i_alpha : ℂ := Complex.exp (Complex.I * alpha)
  let cexp_2i_alpha : ℂ := cexp_i_alpha * cexp_i_alpha
  let cexp_mi_alpha : ℂ := 1 / cexp_i_alpha
  let cexp_m2i_alpha : ℂ := cexp_mi_alpha * cexp_mi_alpha
  let T2m : ℂ :=
    cexp_2i_alpha * cBetah4 * Y2mA 0
      - cexp_i_alpha * 2 * cBetah3 * sBetah * Y2mA 1
      + 1 * (Real.sqrt 6 : ℂ) * sBetah2 * cBetah2 * Y2mA 2
      - cexp_mi_alpha * 2 * cBetah * sBetah3 * Y2mA 3
      + cexp_m2i_alpha * sBetah4 * Y2mA 4
  let Tm2m : ℂ :=
    cexp_m2i_alpha * sBetah4 * (starRingEnd ℂ) (Y2mA 0)
      + cexp_mi_alpha * 2 * cBetah * sBetah3 * (starRingEnd ℂ) (Y2mA 1)
      + 1 * (Real.sqrt 6 : ℂ) * sBetah2 * cBetah2 * (starRingEnd ℂ) (Y2mA 2)
      + cexp_i_alpha * 2 * cBetah3 * sBetah * (starRingEnd ℂ) (Y2mA 3)
      + cexp_2i_alpha * cBetah4 * (starRingEnd ℂ) (Y2mA 4)
  let hp_sum : ℂ := T2m + Tm2m
  let hc_sum : ℂ := Complex.I * (T2m - Tm2m)
  let eps_phase_hP : ℂ := Complex.exp (-(2 * Complex.I) * epsilon) * hPhenom / 2
  let hp := eps_phase_hP * hp_sum
  let hc := eps_phase_hP * hc_sum
  (hp, hc)

/-- `PhenomPOneFrequency`. src/ripplegw/waveforms/IMRPhenomPv2.py:118-140.  `fs` is the whole grid (the cutoff inside
    PhenomD's `Amp` depends on it). -/
def PhenomPOneFrequency (fs : List ℝ) (m1 m2 chi1 chi2 phic dist_mpc : ℝ) (coeffs : Fin 19 → ℝ)
    (transition_freqs : TransFreqs) : List ℂ × (ℝ → ℝ) :=
  let norm : ℝ := 2 * Real.sqrt (5 / (64 * PI))
  let theta_ripple : Theta := ⟨m1, m2, chi1, chi2⟩
  let phase : List ℝ := fs.map fun f => PhenomD.Phase f theta_ripple coeffs transition_freqs
  let Dphi : ℝ → ℝ := fun f => -PhenomD.Phase f theta_ripple coeffs transition_freqs
  let phase : List ℝ := phase.map fun p => p - phic
  let Amp : List ℝ := (PhenomD.Amp fs theta_ripple coeffs transition_freqs dist_mpc).map fun a => a / norm
  let hPhenom : List ℂ := List.zipWith (fun (a p : ℝ) => (a : ℂ) * Complex.exp (-Complex.I * p)) Amp phase
  (hPhenom, Dphi)

/-- `gen_IMRPhenomPv2`. src/ripplegw/waveforms/IMRPhenomPv2.py:143-256.  The unpacking of `theta` on line 152 raises
    `ValueError` unless there are exactly twelve entries. `jax.grad` at `f_RD` is `deriv`. -/
def gen_IMRPhenomPv2 (Q : QNM) (fs : List ℝ) (theta : List ℝ) (f_ref : ℝ) : Except PyErr (List ℂ × List ℂ) :=
  match theta with
  | [m1_in, m2_in, s1x_in, s1y_in, s1z_in, s2x_in, s2y_in, s2z_in, dist_mpc, tc, phiRef, incl] => do
    let m1 := m2_in
    let m2 := m1_in
    let s1x := s2x_in
    let s2x := s1x_in
    let s1y := s2y_in
    let s2y := s1y_in
    let s1z := s2z_in
    let s2z := s1z_in
    let cv := convert_spins m1 m2 f_ref phiRef incl s1x s1y s1z s2x s2y s2z
    let chi1_l := cv.chi1_l
    let chi2_l := cv.chi2_l
    let chip := cv.chip
    let thetaJN := cv.thetaJN
    let alpha0 := cv.alpha0
    let phi_aligned := cv.phi_aligned
    let zeta_polariz := cv.zeta_polariz
    let phic := 2 * phi_aligned
    let q := m2 / m1
    let M := m1 + m2
    let chi_eff := (m1 * chi1_l + m2 * chi2_l) / M
    let chil := (1 + q) / q * chi_eff
    let eta := m1 * m2 / (M * M)
    let m_sec := M * gt
    let piM := PI * m_sec
    let omega_ref := piM * f_ref
    let logomega_ref := Real.log omega_ref
    let omega_ref_cbrt := (piM * f_ref) ^ ((1 : ℝ) / 3)
    let omega_ref_cbrt2 := omega_ref_cbrt * omega_ref_cbrt
    let angcoeffs := ComputeNNLOanglecoeffs q chil chip
    let alphaNNLOoffset :=
      angcoeffs.alphacoeff1 / omega_ref
        + angcoeffs.alphacoeff2 / omega_ref_cbrt2
        + angcoeffs.alphacoeff3 / omega_ref_cbrt
        + angcoeffs.alphacoeff4 * logomega_ref
        + angcoeffs.alphacoeff5 * omega_ref_cbrt
    let epsilonNNLOoffset :=
      angcoeffs.epsiloncoeff1 / omega_ref
        + angcoeffs.epsiloncoeff2 / omega_ref_cbrt2
        + angcoeffs.epsiloncoeff3 / omega_ref_cbrt
        + angcoeffs.epsiloncoeff4 * logomega_ref
        + angcoeffs.epsiloncoeff5 * omega_ref_cbrt
    let Y2m2 ← SpinWeightedY thetaJN 0 (-2) 2 (-2)
    let Y2m1 ← SpinWeightedY thetaJN 0 (-2) 2 (-1)
    let Y20 ← SpinWeightedY thetaJN 0 (-2) 2 0
    let Y21 ← SpinWeightedY thetaJN 0 (-2) 2 1
    let Y22 ← SpinWeightedY thetaJN 0 (-2) 2 2
    let Y2 : Fin 5 → ℂ := ![Y2m2, Y2m1, Y20, Y21, Y22]
    let theta_intrinsic : Theta := ⟨m2, m1, chi2_l, chi1_l⟩
    let coeffs := PhenomD.get_coeffs theta_intrinsic
    let transition_freqs := phP_get_transition_frequencies Q theta_intrinsic (coeffs 5) (coeffs 6) chip
    let one := PhenomPOneFrequency fs m2 m1 chi2_l chi1_l phic dist_mpc coeffs transition_freqs
    let hPhenomDs := one.1
    let phi_IIb := one.2
    let hphc := List.zipWith (fun f h => PhenomPCoreTwistUp f h eta chi1_l chi2_l chip M angcoeffs Y2
      (alphaNNLOoffset - alpha0) epsilonNNLOoffset) fs hPhenomDs
    let f_RD := transition_freqs.f_RD
    let t0 := deriv phi_IIb f_RD / (2 * PI)
    let M_s := (m1 + m2) * gt
    let corr : List ℂ := fs.map fun f =>
      ((Real.cos (2 * PI * f * t0) : ℂ) - Complex.I * (Real.sin (2 * PI * f * t0) : ℂ))
        * Complex.exp (-Complex.I * f * M_s * tc)
    let hphc : List (ℂ × ℂ) := List.zipWith (fun (h : ℂ × ℂ) (c : ℂ) => (h.1 * c, h.2 * c)) hphc corr
    let c2z : ℂ := (Real.cos (2 * zeta_polariz) : ℂ)
    let s2z : ℂ := (Real.sin (2 * zeta_polariz) : ℂ)
    let final_hp := hphc.map fun h => c2z * h.1 + s2z * h.2
    let final_hc := hphc.map fun h => c2z * h.2 - s2z * h.1
    .ok (final_hp, final_hc)
  | _ => .error .valueError

/-- `gen_IMRPhenomPv2_hphc`. src/ripplegw/waveforms/IMRPhenomPv2.py:259-284.  `params` is a JAX array: indices out of
    range clamp. -/
def gen_IMRPhenomPv2_hphc (Q : QNM) (f : List ℝ) (params : List ℝ) (f_ref : ℝ) : Except PyErr (List ℂ × List ℂ) :=
  let Mc := Jnp.index params 0
  let eta := Jnp.index params 1
  let ms := Mc_eta_to_ms Mc eta
  let m1m2params : List ℝ :=
    [ms.1, ms.2, Jnp.index params 2, Jnp.index params 3, Jnp.index params 4, Jnp.index params 5, Jnp.index params 6,
      Jnp.index params 7, Jnp.index params 8, Jnp.index params 9, Jnp.index params 10, Jnp.index params 11]
  gen_IMRPhenomPv2 Q f m1m2params f_ref

end
end Pv2
end Ripple

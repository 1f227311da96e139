/-
  Helper lemmas about the TaylorF2 model.
-/
import Verif.Model.TaylorF2
import Verif.Spec.PN
import Verif.Proofs.Conversions
import Verif.Proofs.Index
import Mathlib.Analysis.SpecialFunctions.Complex.Circle

namespace Ripple

lemma Jnp.cbrt_of_nonneg {x : ℝ} (h : 0 ≤ x) : Jnp.cbrt x = x ^ ((1 : ℝ) / 3) := by
  unfold Jnp.cbrt; rw [if_pos h]

namespace TaylorF2
open Tidal

/-- amplitude (with its sign) at frequency `x` -/
noncomputable def f2amp (theta : ThetaT) (D x : ℝ) : ℝ :=
  let M_s : ℝ := (theta.m1 + theta.m2) * gt
  let eta : ℝ := theta.m1 * gt * (theta.m2 * gt) / M_s ^ 2
  let v : ℝ := Jnp.cbrt (PI * M_s * x)
  (-4) * theta.m1 * theta.m2 / (D * m_per_Mpc) * MRSUN * gt * Real.sqrt (PI / 12) *
    Real.sqrt (-(2 * get_energy_0PNCoeff eta * v) / (get_flux_0PNCoeff eta *
      (v * (v * (v * (v * (v * (v * (v * (v * (v * v))))))))))) * v

lemma cexp_form (a p : ℝ) : ((a * Real.cos p : ℝ) : ℂ) - ((a * Real.sin p : ℝ) : ℂ) * Complex.I =
    (a : ℂ) * Complex.exp (-(Complex.I * (p : ℂ))) := by
  rw [show -(Complex.I * (p : ℂ)) = ((-p : ℝ) : ℂ) * Complex.I by push_cast; ring, Complex.exp_mul_I,
    ← Complex.ofReal_cos, ← Complex.ofReal_sin, Real.cos_neg, Real.sin_neg]
  push_cast
  ring

open Classical in
/-- phase at frequency `x` -/
noncomputable def f2phase (theta : ThetaT) (tc phic f_ref x : ℝ) : ℝ :=
  let c := get_PNPhasing_F2 theta.m1 theta.m2 theta.chi1 theta.chi2 theta.lambda1 theta.lambda2
  let piM := PI * ((theta.m1 + theta.m2) * gt)
  phasing_at c piM x + (2 * PI * tc * x - 2 * phic - if f_ref ≠ 0 then ref_phasing_at c piM f_ref else 0)

/-- strain at frequency `x` -/
noncomputable def f2strain (theta : ThetaT) (D tc phic f_ref x : ℝ) : ℂ :=
  (f2amp theta D x : ℂ) * Complex.exp (-(Complex.I * ((f2phase theta tc phic f_ref x - PI / 4 : ℝ) : ℂ)))

lemma _gen_eq (grid : List ℝ) (theta : ThetaT) (D tc phic f_ref : ℝ) :
    _gen_TaylorF2 grid theta D tc phic f_ref = grid.map (f2strain theta D tc phic f_ref) := by
  unfold _gen_TaylorF2
  simp only
  refine List.map_congr_left fun x _ => ?_
  rw [cexp_form]
  rfl

lemma ref_eq (c : PNPhasing) (piM x : ℝ) : ref_phasing_at c piM x = phasing_at c piM x := rfl

lemma f2phase_shift (theta : ThetaT) (tc phic f_ref dt dphi x : ℝ) :
    f2phase theta (tc + dt) (phic + dphi) f_ref x =
      f2phase theta tc phic f_ref x + (2 * PI * x * dt - 2 * dphi) := by
  unfold f2phase; ring

/-- amplitude law -/
lemma f2amp_eq {theta : ThetaT} (h1 : 0 < theta.m1) (h2 : 0 < theta.m2) {D x : ℝ} (hx : 0 < x) :
    f2amp theta D x = -(Real.sqrt (5 / 24) * Real.pi ^ (-(2 / 3) : ℝ) *
      Real.sqrt (theta.m1 * theta.m2 / (theta.m1 + theta.m2) ^ 2) * ((theta.m1 + theta.m2) * MRSUN) *
      ((theta.m1 + theta.m2) * gt) * ((theta.m1 + theta.m2) * gt * x) ^ (-(7 / 6) : ℝ) / (D * m_per_Mpc)) := by
  have hg := gt_pos
  have hpi := Real.pi_pos
  set m1 := theta.m1
  set m2 := theta.m2
  have hM : 0 < m1 + m2 := by positivity
  unfold f2amp
  simp only [PI]
  have hv0 : 0 < Real.pi * ((m1 + m2) * gt) * x := by positivity
  rw [Jnp.cbrt_of_nonneg hv0.le]
  set u := Real.pi * ((m1 + m2) * gt) * x with hu
  set v := u ^ ((1 : ℝ) / 3) with hv
  have hvp : 0 < v := Real.rpow_pos_of_pos hv0 _
  have heta : m1 * gt * (m2 * gt) / ((m1 + m2) * gt) ^ 2 = m1 * m2 / (m1 + m2) ^ 2 := by field_simp
  rw [heta]
  set e := m1 * m2 / (m1 + m2) ^ 2 with he
  have hep : 0 < e := by positivity
  have e1 : -(2 * get_energy_0PNCoeff e * v) / (get_flux_0PNCoeff e *
      (v * (v * (v * (v * (v * (v * (v * (v * (v * v)))))))))) = 5 / (32 * e) * (v ^ 9)⁻¹ := by
    unfold get_energy_0PNCoeff get_flux_0PNCoeff
    field_simp
  have e2 : v ^ 9 = u ^ 3 := by
    rw [hv, ← Real.rpow_natCast, ← Real.rpow_mul hv0.le, ← Real.rpow_natCast]; norm_num
  have e3 : Real.sqrt (5 / (32 * e) * (v ^ 9)⁻¹) * v = Real.sqrt (5 / (32 * e)) * u ^ (-(7 / 6) : ℝ) := by
    rw [Real.sqrt_mul (by positivity), e2, Real.sqrt_eq_rpow (u ^ 3)⁻¹, ← Real.rpow_natCast, ← Real.rpow_neg hv0.le,
      ← Real.rpow_mul hv0.le, mul_assoc, hv, ← Real.rpow_add hv0]
    norm_num
  rw [e1, mul_assoc _ (Real.sqrt (5 / (32 * e) * (v ^ 9)⁻¹)) v, e3]
  have e4 : u ^ (-(7 / 6) : ℝ) = Real.pi ^ (-(7 / 6) : ℝ) * ((m1 + m2) * gt * x) ^ (-(7 / 6) : ℝ) := by
    rw [hu, show Real.pi * ((m1 + m2) * gt) * x = Real.pi * ((m1 + m2) * gt * x) by ring,
      Real.mul_rpow hpi.le (by positivity)]
  have e5 : Real.sqrt (Real.pi / 12) * Real.sqrt (5 / (32 * e)) * (4 * e) =
      Real.sqrt (5 / 24) * Real.sqrt Real.pi * Real.sqrt e := by
    rw [← Real.sqrt_mul (by positivity), ← Real.sqrt_mul (by positivity), ← Real.sqrt_mul (by positivity),
      show 4 * e = Real.sqrt ((4 * e) ^ 2) from (Real.sqrt_sq (by positivity)).symm, ← Real.sqrt_mul (by positivity)]
    congr 1
    field_simp
    norm_num
  have e6 : Real.sqrt Real.pi * Real.pi ^ (-(7 / 6) : ℝ) = Real.pi ^ (-(2 / 3) : ℝ) := by
    rw [Real.sqrt_eq_rpow, ← Real.rpow_add hpi]; norm_num
  have e7 : m1 * m2 = e * (m1 + m2) ^ 2 := by rw [he]; field_simp
  rw [e4, ← e6]
  calc _ = -((Real.sqrt (Real.pi / 12) * Real.sqrt (5 / (32 * e)) * (4 * e)) * ((m1 + m2) * MRSUN) * ((m1 + m2) * gt) *
      (Real.pi ^ (-(7 / 6) : ℝ) * ((m1 + m2) * gt * x) ^ (-(7 / 6) : ℝ)) / (D * m_per_Mpc)) := by
        rw [show -4 * m1 * m2 = -4 * (m1 * m2) by ring, e7]; ring
    _ = _ := by rw [e5]; ring

/-! the phasing coefficients in terms of the specification -/
section coeffs
variable {m1 m2 : ℝ} (h1 : 0 < m1) (h2 : 0 < m2) (χ1 χ2 l1 l2 : ℝ)
include h1 h2

lemma eta_s : m1 * gt * (m2 * gt) / (m1 * gt + m2 * gt) ^ 2 = Spec.eta m1 m2 := by
  have := gt_pos
  unfold Spec.eta
  field_simp

lemma X2_eq : m2 / (m1 + m2) = 1 - m1 / (m1 + m2) := by field_simp; ring
lemma eta_X : Spec.eta m1 m2 = m1 / (m1 + m2) * (1 - m1 / (m1 + m2)) := by
  unfold Spec.eta; field_simp; ring
lemma delta_X : Spec.delta m1 m2 = 2 * (m1 / (m1 + m2)) - 1 := by
  unfold Spec.delta; field_simp; ring
lemma lambdaTilde_X : Spec.lambdaTilde m1 l1 m2 l2 =
    16 / 13 * ((12 - 11 * (m1 / (m1 + m2))) * (m1 / (m1 + m2)) ^ 4 * l1
      + (12 - 11 * (m2 / (m1 + m2))) * (m2 / (m1 + m2)) ^ 4 * l2) := by
  unfold Spec.lambdaTilde; field_simp; ring

lemma p0_eq : (get_PNPhasing_F2 m1 m2 χ1 χ2 l1 l2).p0 = 3 / (128 * Spec.eta m1 m2) := by
  simp only [get_PNPhasing_F2, eta_s h1 h2]; ring
lemma p1_eq : (get_PNPhasing_F2 m1 m2 χ1 χ2 l1 l2).p1 = 0 := by
  simp only [get_PNPhasing_F2]; ring
lemma p2_eq : (get_PNPhasing_F2 m1 m2 χ1 χ2 l1 l2).p2 =
    Spec.psi2 (Spec.eta m1 m2) * (3 / (128 * Spec.eta m1 m2)) := by
  simp only [get_PNPhasing_F2, eta_s h1 h2, Spec.psi2]; ring
lemma p3_eq : (get_PNPhasing_F2 m1 m2 χ1 χ2 l1 l2).p3 =
    Spec.psi3 (Spec.eta m1 m2) (Spec.delta m1 m2) ((χ1 + χ2) / 2) ((χ1 - χ2) / 2) * (3 / (128 * Spec.eta m1 m2)) := by
  simp only [get_PNPhasing_F2, eta_s h1 h2, Spec.psi3, get_3PNSOCoeff, PI]
  congr 1
  rw [eta_X h1 h2, delta_X h1 h2, X2_eq h1 h2]
  ring
lemma p4_eq : (get_PNPhasing_F2 m1 m2 χ1 χ2 l1 l2).p4 =
    (Spec.psi4 (Spec.eta m1 m2) + Spec.psi4SS (m1 / (m1 + m2)) (m2 / (m1 + m2)) χ1 χ2
      (get_quadparam_octparam l1).1 (get_quadparam_octparam l2).1) * (3 / (128 * Spec.eta m1 m2)) := by
  simp only [get_PNPhasing_F2, eta_s h1 h2, Spec.psi4, Spec.psi4SS, get_4PNS1S2Coeff, get_4PNS1S2OCoeff,
    get_4PNQM2SOCoeff, get_4PNSelf2SOCoeff, get_4PNQM2SCoeff, get_4PNSelf2SCoeff]
  congr 1
  rw [eta_X h1 h2, X2_eq h1 h2]
  ring
lemma p5_eq : (get_PNPhasing_F2 m1 m2 χ1 χ2 l1 l2).p5 =
    Spec.psi5 (Spec.eta m1 m2) (Spec.delta m1 m2) ((χ1 + χ2) / 2) ((χ1 - χ2) / 2) * (3 / (128 * Spec.eta m1 m2)) := by
  simp only [get_PNPhasing_F2, eta_s h1 h2, Spec.psi5, get_5PNSOCoeff, PI]
  congr 1
  rw [eta_X h1 h2, delta_X h1 h2, X2_eq h1 h2]
  ring
lemma l5_eq : (get_PNPhasing_F2 m1 m2 χ1 χ2 l1 l2).l5 =
    3 * Spec.psi5 (Spec.eta m1 m2) (Spec.delta m1 m2) ((χ1 + χ2) / 2) ((χ1 - χ2) / 2)
      * (3 / (128 * Spec.eta m1 m2)) := by
  simp only [get_PNPhasing_F2, eta_s h1 h2, Spec.psi5, get_5PNSOCoeff, PI]
  congr 1
  rw [eta_X h1 h2, delta_X h1 h2, X2_eq h1 h2]
  ring
lemma l6_eq : (get_PNPhasing_F2 m1 m2 χ1 χ2 l1 l2).l6 = -(6848 / 21) * (3 / (128 * Spec.eta m1 m2)) := by
  simp only [get_PNPhasing_F2, eta_s h1 h2]; ring
lemma p6_eq : (get_PNPhasing_F2 m1 m2 χ1 χ2 l1 l2).p6 =
    (Spec.psi6 EulerGamma (Real.log 4) (Spec.eta m1 m2) (Spec.delta m1 m2) ((χ1 + χ2) / 2) ((χ1 - χ2) / 2)
      + Spec.psi6SS (m1 / (m1 + m2)) (m2 / (m1 + m2)) χ1 χ2
      (get_quadparam_octparam l1).1 (get_quadparam_octparam l2).1) * (3 / (128 * Spec.eta m1 m2)) := by
  simp only [get_PNPhasing_F2, eta_s h1 h2, Spec.psi6, Spec.psi6SS, get_6PNSOCoeff, get_6PNS1S2OCoeff,
    get_6PNQM2SCoeff, get_6PNSelf2SCoeff, PI]
  congr 1
  rw [eta_X h1 h2, delta_X h1 h2, X2_eq h1 h2]
  ring
lemma p7_eq : (get_PNPhasing_F2 m1 m2 χ1 χ2 l1 l2).p7 =
    Spec.psi7 (Spec.eta m1 m2) (Spec.delta m1 m2) ((χ1 + χ2) / 2) ((χ1 - χ2) / 2) * (3 / (128 * Spec.eta m1 m2)) := by
  simp only [get_PNPhasing_F2, eta_s h1 h2, Spec.psi7, get_7PNSOCoeff, PI]
  congr 1
  rw [eta_X h1 h2, delta_X h1 h2, X2_eq h1 h2]
  ring
lemma p10_eq : (get_PNPhasing_F2 m1 m2 χ1 χ2 l1 l2).p10 =
    Spec.psi10 m1 l1 m2 l2 * (3 / (128 * Spec.eta m1 m2)) := by
  simp only [get_PNPhasing_F2, eta_s h1 h2, Spec.psi10, get_10PNTidalCoeff, lambdaTilde_X h1 h2]
  ring
lemma p12_eq : (get_PNPhasing_F2 m1 m2 χ1 χ2 l1 l2).p12 =
    Spec.psi12 m1 l1 m2 l2 * (3 / (128 * Spec.eta m1 m2)) := by
  simp only [get_PNPhasing_F2, eta_s h1 h2, Spec.psi12, get_12PNTidalCoeff, lambdaTilde_X h1 h2, Spec.deltaLambdaTilde]
  congr 1
  rw [eta_X h1 h2, delta_X h1 h2, X2_eq h1 h2]
  ring
lemma p13_eq : (get_PNPhasing_F2 m1 m2 χ1 χ2 l1 l2).p13 =
    Spec.psi13 m1 l1 m2 l2 * (3 / (128 * Spec.eta m1 m2)) := by
  simp only [get_PNPhasing_F2, eta_s h1 h2, Spec.psi13, get_13PNTidalCoeff, lambdaTilde_X h1 h2, PI]
  ring
lemma p14_eq : (get_PNPhasing_F2 m1 m2 χ1 χ2 l1 l2).p14 =
    (Spec.psi14 (m1 / (m1 + m2)) l1 + Spec.psi14 (m2 / (m1 + m2)) l2) * (3 / (128 * Spec.eta m1 m2)) := by
  simp only [get_PNPhasing_F2, eta_s h1 h2, Spec.psi14, get_14PNTidalCoeff]
  ring
lemma p15_eq : (get_PNPhasing_F2 m1 m2 χ1 χ2 l1 l2).p15 = 0 := by
  simp only [get_PNPhasing_F2]; ring

lemma phasing_spec {x : ℝ} (hx : 0 < x) :
    phasing_at (get_PNPhasing_F2 m1 m2 χ1 χ2 l1 l2) (PI * ((m1 + m2) * gt)) x =
      Spec.f2Phase m1 m2 χ1 χ2 l1 l2 (get_quadparam_octparam l1).1 (get_quadparam_octparam l2).1 x := by
  have hpi := Real.pi_pos
  have hg := gt_pos
  have hu : 0 < Real.pi * ((m1 + m2) * gt) * x := by positivity
  unfold phasing_at Spec.f2Phase
  simp only [PI, Jnp.cbrt_of_nonneg hu.le]
  set v := (Real.pi * ((m1 + m2) * gt) * x) ^ ((1 : ℝ) / 3)
  have hv : 0 < v := Real.rpow_pos_of_pos hu _
  have he : 0 < Spec.eta m1 m2 := by unfold Spec.eta; positivity
  have hlog : Real.log (4 * v) = Real.log 4 + Real.log v := Real.log_mul (by norm_num) hv.ne'
  rw [p0_eq h1 h2, p1_eq h1 h2, p2_eq h1 h2, p3_eq h1 h2, p4_eq h1 h2, p5_eq h1 h2, p6_eq h1 h2, p7_eq h1 h2,
    p10_eq h1 h2, p12_eq h1 h2, p13_eq h1 h2, p14_eq h1 h2, p15_eq h1 h2, l5_eq h1 h2, l6_eq h1 h2, hlog]
  have e6 : Spec.psi6 EulerGamma (Real.log 4 + Real.log v) (Spec.eta m1 m2) (Spec.delta m1 m2) ((χ1 + χ2) / 2)
      ((χ1 - χ2) / 2) = Spec.psi6 EulerGamma (Real.log 4) (Spec.eta m1 m2) (Spec.delta m1 m2) ((χ1 + χ2) / 2)
      ((χ1 - χ2) / 2) - 6848 / 21 * Real.log v := by unfold Spec.psi6; ring
  rw [e6]
  generalize Spec.psi6 EulerGamma (Real.log 4) (Spec.eta m1 m2) (Spec.delta m1 m2) ((χ1 + χ2) / 2)
      ((χ1 - χ2) / 2) = a6
  generalize Spec.psi5 (Spec.eta m1 m2) (Spec.delta m1 m2) ((χ1 + χ2) / 2) ((χ1 - χ2) / 2) = a5
  generalize Spec.psi7 (Spec.eta m1 m2) (Spec.delta m1 m2) ((χ1 + χ2) / 2) ((χ1 - χ2) / 2) = a7
  generalize Spec.psi3 (Spec.eta m1 m2) (Spec.delta m1 m2) ((χ1 + χ2) / 2) ((χ1 - χ2) / 2) = a3
  rw [div_eq_iff (by positivity)]
  field_simp
  ring

end coeffs

end TaylorF2
end Ripple

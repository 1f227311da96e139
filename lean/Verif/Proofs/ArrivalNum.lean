/-
  Numerical bounds for C119: two binaries.
-/
import Verif.Proofs.Arrival
import Verif.Props.RemnantCompare
import Verif.Prelude.IntervalTac

namespace Ripple
namespace PhenomD

lemma coeff_at (theta : Theta) (i : Fin 19) {e x : ℝ} (he : etaS theta = e)
    (hx : (theta.chi1 + theta.chi2) / 2 * (1 - 76 * e / 113) + (1 - 4 * e) ^ ((1 : ℝ) / 2) * ((theta.chi1 - theta.chi2) / 2) - 1 = x) :
    get_coeffs theta i = PhenomD_coeff_table i 0 + PhenomD_coeff_table i 1 * e
      + x * (PhenomD_coeff_table i 2 + PhenomD_coeff_table i 3 * e + PhenomD_coeff_table i 4 * e ^ 2)
      + x ^ 2 * (PhenomD_coeff_table i 5 + PhenomD_coeff_table i 6 * e + PhenomD_coeff_table i 7 * e ^ 2)
      + x ^ 3 * (PhenomD_coeff_table i 8 + PhenomD_coeff_table i 9 * e + PhenomD_coeff_table i 10 * e ^ 2) := by
  subst he; subst hx; rfl

lemma root_mem {y a b x : ℝ} {n : ℕ} (hn : n ≠ 0) {r : ℝ} (hr : r = 1 / (n : ℝ)) (hy : 0 ≤ y) (ha : 0 ≤ a) (hb : 0 ≤ b) (h1 : a ^ n ≤ y) (h2 : y ≤ b ^ n)
    (hx : x = y ^ r) : a ≤ x ∧ x ≤ b := by
  have hx0 : 0 ≤ x := by rw [hx]; exact Real.rpow_nonneg hy _
  have e : x ^ n = y := by
    rw [hx, ← Real.rpow_natCast, ← Real.rpow_mul hy, hr, one_div, inv_mul_cancel₀ (by exact_mod_cast hn), Real.rpow_one]
  exact ⟨(pow_le_pow_iff_left₀ ha hx0 hn).1 (by rw [e]; exact h1), (pow_le_pow_iff_left₀ hx0 hb hn).1 (by rw [e]; exact h2)⟩

/-- `(0.018 π)^(1/3)` -/
lemma u_box : 0.38383 ≤ (Real.pi * 0.018) ^ ((1 : ℝ) / 3) ∧ (Real.pi * 0.018) ^ ((1 : ℝ) / 3) ≤ 0.38384 := by
  have h1 := Real.pi_gt_d6
  have h2 := Real.pi_lt_d6
  refine root_mem (n := 3) (by norm_num) (by norm_num) (by positivity) (by norm_num) (by norm_num) ?_ ?_ rfl
  · norm_num; linarith
  · norm_num; linarith

lemma log_u_box {u : ℝ} (hu : 0.38383 ≤ u ∧ u ≤ 0.38384) : -0.9585 ≤ Real.log u ∧ Real.log u ≤ -0.9564 := by
  have e1 := Real.exp_one_gt_d9
  have e2 := Real.exp_one_lt_d9
  have u0 : 0 < u := by linarith [hu.1]
  have hl : Real.log u = Real.log (u * Real.exp 1) - 1 := by
    rw [Real.log_mul u0.ne' (Real.exp_pos 1).ne', Real.log_exp]; ring
  have p : 0 < u * Real.exp 1 := mul_pos u0 (Real.exp_pos 1)
  have a := Real.log_le_sub_one_of_pos p
  have b := Real.one_sub_inv_le_log_of_pos p
  have m1 : 0.38383 * 2.7182818283 ≤ u * Real.exp 1 := mul_le_mul hu.1 e1.le (by norm_num) u0.le
  have m2 : u * Real.exp 1 ≤ 0.38384 * 2.7182818286 := mul_le_mul hu.2 e2.le (Real.exp_pos 1).le (by norm_num)
  have c : (u * Real.exp 1)⁻¹ ≤ (0.38383 * 2.7182818283)⁻¹ := inv_anti₀ (by norm_num) m1
  have n1 : ((0.38383 : ℝ) * 2.7182818283)⁻¹ ≤ 0.9585 := by norm_num
  constructor
  · linarith
  · rw [hl]; norm_num at m2 ⊢; linarith

lemma log4_box : 1.3862 ≤ Real.log 4 ∧ Real.log 4 ≤ 1.3863 := by
  have h1 := Real.log_two_gt_d9
  have h2 := Real.log_two_lt_d9
  have : Real.log 4 = 2 * Real.log 2 := by
    rw [show (4 : ℝ) = 2 ^ 2 by norm_num, Real.log_pow]; norm_num
  rw [this]; constructor <;> linarith

lemma w_box : 0.26207 ≤ (0.018 : ℝ) ^ ((1 : ℝ) / 3) ∧ (0.018 : ℝ) ^ ((1 : ℝ) / 3) ≤ 0.26208 := by
  refine root_mem (n := 3) (by norm_num) (by norm_num) (by norm_num) (by norm_num) (by norm_num) ?_ ?_ rfl <;> norm_num

lemma w2_eq : (0.018 : ℝ) ^ ((2 : ℝ) / 3) = ((0.018 : ℝ) ^ ((1 : ℝ) / 3)) ^ 2 := by
  rw [← Real.rpow_natCast, ← Real.rpow_mul (by norm_num)]; norm_num


/-! ### eta = 2 / 9, spins 0.9, -0.9 -/

lemma x_I (theta : Theta) (he : etaS theta = 2 / 9) (hc1 : theta.chi1 = 0.9) (hc2 : theta.chi2 = -0.9) :
    (theta.chi1 + theta.chi2) / 2 * (1 - 76 * (2 / 9) / 113) + (1 - 4 * (2 / 9)) ^ ((1 : ℝ) / 2) * ((theta.chi1 - theta.chi2) / 2) - 1
      = -0.7 := by
  have _ := he
  rw [hc1, hc2, ← Real.sqrt_eq_rpow, show (1 - 4 * (2 / 9) : ℝ) = (1/3) ^ 2 by norm_num, Real.sqrt_sq (by norm_num)]
  norm_num

lemma c5_I (theta : Theta) (he : etaS theta = 2 / 9) (hc1 : theta.chi1 = 0.9) (hc2 : theta.chi2 = -0.9) :
    0.90274362 ≤ get_coeffs theta 5 ∧ get_coeffs theta 5 ≤ 0.90274365 := by
  rw [coeff_at theta 5 he (x_I theta he hc1 hc2)]
  simp only [PhenomD_coeff_table, Matrix.cons_val]
  norm_num

lemma c6_I (theta : Theta) (he : etaS theta = 2 / 9) (hc1 : theta.chi1 = 0.9) (hc2 : theta.chi2 = -0.9) :
    1.32512112 ≤ get_coeffs theta 6 ∧ get_coeffs theta 6 ≤ 1.32512115 := by
  rw [coeff_at theta 6 he (x_I theta he hc1 hc2)]
  simp only [PhenomD_coeff_table, Matrix.cons_val]
  norm_num

lemma c7_I (theta : Theta) (he : etaS theta = 2 / 9) (hc1 : theta.chi1 = 0.9) (hc2 : theta.chi2 = -0.9) :
    575.770878 ≤ get_coeffs theta 7 ∧ get_coeffs theta 7 ≤ 575.770881 := by
  rw [coeff_at theta 7 he (x_I theta he hc1 hc2)]
  simp only [PhenomD_coeff_table, Matrix.cons_val]
  norm_num

lemma c8_I (theta : Theta) (he : etaS theta = 2 / 9) (hc1 : theta.chi1 = 0.9) (hc2 : theta.chi2 = -0.9) :
    (-4265.68370) ≤ get_coeffs theta 8 ∧ get_coeffs theta 8 ≤ (-4265.68367) := by
  rw [coeff_at theta 8 he (x_I theta he hc1 hc2)]
  simp only [PhenomD_coeff_table, Matrix.cons_val]
  norm_num

lemma c9_I (theta : Theta) (he : etaS theta = 2 / 9) (hc1 : theta.chi1 = 0.9) (hc2 : theta.chi2 = -0.9) :
    12467.3166 ≤ get_coeffs theta 9 ∧ get_coeffs theta 9 ≤ 12467.3169 := by
  rw [coeff_at theta 9 he (x_I theta he hc1 hc2)]
  simp only [PhenomD_coeff_table, Matrix.cons_val]
  norm_num

lemma c10_I (theta : Theta) (he : etaS theta = 2 / 9) (hc1 : theta.chi1 = 0.9) (hc2 : theta.chi2 = -0.9) :
    (-12022.2397) ≤ get_coeffs theta 10 ∧ get_coeffs theta 10 ≤ (-12022.2394) := by
  rw [coeff_at theta 10 he (x_I theta he hc1 hc2)]
  simp only [PhenomD_coeff_table, Matrix.cons_val]
  norm_num

lemma c11_I (theta : Theta) (he : etaS theta = 2 / 9) (hc1 : theta.chi1 = 0.9) (hc2 : theta.chi2 = -0.9) :
    91.0922112 ≤ get_coeffs theta 11 ∧ get_coeffs theta 11 ≤ 91.0922115 := by
  rw [coeff_at theta 11 he (x_I theta he hc1 hc2)]
  simp only [PhenomD_coeff_table, Matrix.cons_val]
  norm_num

lemma c12_I (theta : Theta) (he : etaS theta = 2 / 9) (hc1 : theta.chi1 = 0.9) (hc2 : theta.chi2 = -0.9) :
    (-2.67543842) ≤ get_coeffs theta 12 ∧ get_coeffs theta 12 ≤ (-2.67543839) := by
  rw [coeff_at theta 12 he (x_I theta he hc1 hc2)]
  simp only [PhenomD_coeff_table, Matrix.cons_val]
  norm_num

lemma c13_I (theta : Theta) (he : etaS theta = 2 / 9) (hc1 : theta.chi1 = 0.9) (hc2 : theta.chi2 = -0.9) :
    (-0.00001286350391) ≤ get_coeffs theta 13 ∧ get_coeffs theta 13 ≤ (-0.00001286350388) := by
  rw [coeff_at theta 13 he (x_I theta he hc1 hc2)]
  simp only [PhenomD_coeff_table, Matrix.cons_val]
  norm_num

lemma c14_I (theta : Theta) (he : etaS theta = 2 / 9) (hc1 : theta.chi1 = 0.9) (hc2 : theta.chi2 = -0.9) :
    93.1577794 ≤ get_coeffs theta 14 ∧ get_coeffs theta 14 ≤ 93.1577797 := by
  rw [coeff_at theta 14 he (x_I theta he hc1 hc2)]
  simp only [PhenomD_coeff_table, Matrix.cons_val]
  norm_num

lemma c15_I (theta : Theta) (he : etaS theta = 2 / 9) (hc1 : theta.chi1 = 0.9) (hc2 : theta.chi2 = -0.9) :
    (-0.061529475) ≤ get_coeffs theta 15 ∧ get_coeffs theta 15 ≤ (-0.061529472) := by
  rw [coeff_at theta 15 he (x_I theta he hc1 hc2)]
  simp only [PhenomD_coeff_table, Matrix.cons_val]
  norm_num

lemma c16_I (theta : Theta) (he : etaS theta = 2 / 9) (hc1 : theta.chi1 = 0.9) (hc2 : theta.chi2 = -0.9) :
    (-16.4535797) ≤ get_coeffs theta 16 ∧ get_coeffs theta 16 ≤ (-16.4535794) := by
  rw [coeff_at theta 16 he (x_I theta he hc1 hc2)]
  simp only [PhenomD_coeff_table, Matrix.cons_val]
  norm_num

lemma c17_I (theta : Theta) (he : etaS theta = 2 / 9) (hc1 : theta.chi1 = 0.9) (hc2 : theta.chi2 = -0.9) :
    0.23756413 ≤ get_coeffs theta 17 ∧ get_coeffs theta 17 ≤ 0.23756416 := by
  rw [coeff_at theta 17 he (x_I theta he hc1 hc2)]
  simp only [PhenomD_coeff_table, Matrix.cons_val]
  norm_num

lemma c18_I (theta : Theta) (he : etaS theta = 2 / 9) (hc1 : theta.chi1 = 0.9) (hc2 : theta.chi2 = -0.9) :
    0.99003197 ≤ get_coeffs theta 18 ∧ get_coeffs theta 18 ≤ 0.99003200 := by
  rw [coeff_at theta 18 he (x_I theta he hc1 hc2)]
  simp only [PhenomD_coeff_table, Matrix.cons_val]
  norm_num

lemma ins_I (theta : Theta) (he : etaS theta = 2 / 9) (hc1 : theta.chi1 = 0.9) (hc2 : theta.chi2 = -0.9)
    (hX1 : theta.m1 * gt / (theta.m1 * gt + theta.m2 * gt) = 2 / 3) (hX2 : theta.m2 * gt / (theta.m1 * gt + theta.m2 * gt) = 1 / 3) :
    (-1061.8) < slopeIns (get_inspiral_phase_coeffs theta) (get_coeffs theta) (2 / 9) 0.018 ∧
      slopeIns (get_inspiral_phase_coeffs theta) (get_coeffs theta) (2 / 9) 0.018 < (-1058.5) := by
  have b7 := c7_I theta he hc1 hc2
  have b8 := c8_I theta he hc1 hc2
  have b9 := c9_I theta he hc1 hc2
  have b10 := c10_I theta he hc1 hc2
  have hu := u_box
  have hl := log_u_box hu
  have h4 := log4_box
  have hw := w_box
  have hp : 3.141592 ≤ Real.pi ∧ Real.pi ≤ 3.141593 := ⟨Real.pi_gt_d6.le, Real.pi_lt_d6.le⟩
  unfold slopeIns get_inspiral_phase_coeffs
  simp only
  rw [show theta.m1 * gt * (theta.m2 * gt) / (theta.m1 * gt + theta.m2 * gt) ^ 2 = 2 / 9 from he, hX1, hX2, hc1, hc2, w2_eq]
  simp only [PI, EulerGamma]
  clear he hc1 hc2 hX1 hX2
  generalize (Real.pi * 0.018) ^ ((1 : ℝ) / 3) = u at *
  generalize Real.log u = l at *
  generalize Real.log 4 = L at *
  generalize (0.018 : ℝ) ^ ((1 : ℝ) / 3) = v at *
  generalize get_coeffs theta 7 = c7 at *
  generalize get_coeffs theta 8 = c8 at *
  generalize get_coeffs theta 9 = c9 at *
  generalize get_coeffs theta 10 = c10 at *
  generalize Real.pi = p at *
  constructor
  · rw [← sub_pos]
    interval_bnb [b7, b8, b9, b10, hu, hl, h4, hw, hp] []
  · rw [← sub_pos]
    interval_bnb [b7, b8, b9, b10, hu, hl, h4, hw, hp] []

lemma rd_I {eps : ℝ} (e0 : 0 ≤ eps) (e1 : eps < 4e-6) (theta : Theta) (he : etaS theta = 2 / 9) (hc1 : theta.chi1 = 0.9) (hc2 : theta.chi2 = -0.9)
    (hX1 : theta.m1 * gt / (theta.m1 * gt + theta.m2 * gt) = 2 / 3) (hX2 : theta.m2 * gt / (theta.m1 * gt + theta.m2 * gt) = 1 / 3)
    (hM : 0 < Ms theta) :
    (0.10117 ≤ (get_fRD_fdamp (qnmTable eps) theta.m1 theta.m2 theta.chi1 theta.chi2).1 * Ms theta ∧
      (get_fRD_fdamp (qnmTable eps) theta.m1 theta.m2 theta.chi1 theta.chi2).1 * Ms theta ≤ 0.10138) ∧
    (0.01240 ≤ (get_fRD_fdamp (qnmTable eps) theta.m1 theta.m2 theta.chi1 theta.chi2).2 * Ms theta ∧
      (get_fRD_fdamp (qnmTable eps) theta.m1 theta.m2 theta.chi1 theta.chi2).2 * Ms theta ≤ 0.01261) := by
  have hS : (theta.chi1 * (theta.m1 * gt) ^ 2 + theta.chi2 * (theta.m2 * gt) ^ 2) / (theta.m1 * gt + theta.m2 * gt) ^ 2 = 0.3 := by
    rw [add_div, mul_div_assoc, mul_div_assoc, ← div_pow, ← div_pow, hX1, hX2, hc1, hc2]; norm_num
  have hE : 0.056978063 ≤ EradRational0815 (2 / 9) (0.9) (-0.9) ∧ EradRational0815 (2 / 9) (0.9) (-0.9) ≤ 0.056978066 := by
    unfold EradRational0815 EradRational0815_s
    simp only
    rw [show (1 - 4 * (2 / 9) : ℝ) = (1/3) ^ 2 by norm_num, Real.sqrt_sq (by norm_num)]
    norm_num
  have ha : 0.820712445 ≤ FinalSpin0815_s (2 / 9) (0.3) ∧ FinalSpin0815_s (2 / 9) (0.3) ≤ 0.820712448 := by
    unfold FinalSpin0815_s
    norm_num
  unfold get_fRD_fdamp
  simp only
  rw [show theta.m1 * gt * (theta.m2 * gt) / (theta.m1 * gt + theta.m2 * gt) ^ 2 = 2 / 9 from he, hS, hc1, hc2,
    show theta.m1 * gt + theta.m2 * gt = Ms theta from rfl, div_mul_cancel₀ _ hM.ne', div_mul_cancel₀ _ hM.ne',
    show (qnmTable eps).eps = eps from rfl]
  generalize FinalSpin0815_s (2 / 9) (0.3) = a at *
  generalize EradRational0815 (2 / 9) (0.9) (-0.9) = E at *
  obtain ⟨-, r1, r2⟩ := C97_lookup e0 e1 a (by linarith [ha.1]) (by linarith [ha.2])
  have r1 := abs_le.1 (r1 (by linarith [ha.2]))
  have r2 := abs_le.1 r2
  generalize Jnp.interp eps a (qnmTable eps).a (qnmTable eps).fRD = y at *
  generalize Jnp.interp eps a (qnmTable eps).a (qnmTable eps).fdamp = z at *
  have k1 : 0.095446 < XAS.fRDof a 0 - 5.4e-5 := by
    unfold XAS.fRDof; simp only
    rw [← sub_pos]
    interval_bnb [ha] []
  have k2 : XAS.fRDof a 0 + 5.4e-5 < 0.095569 := by
    unfold XAS.fRDof; simp only
    rw [← sub_pos]
    interval_bnb [ha] []
  have k3 : 0.011717 < XAS.fdampOf a 0 - 6.1e-5 := by
    unfold XAS.fdampOf; simp only
    rw [← sub_pos]
    interval_bnb [ha] []
  have k4 : XAS.fdampOf a 0 + 6.1e-5 < 0.011860 := by
    unfold XAS.fdampOf; simp only
    rw [← sub_pos]
    interval_bnb [ha] []
  have hE0 : 0 < 1 - E := by linarith [hE.2]
  obtain ⟨E1, E2⟩ := hE
  refine ⟨⟨?_, ?_⟩, ⟨?_, ?_⟩⟩
  · rw [le_div_iff₀ hE0]; linarith [r1.1]
  · rw [div_le_iff₀ hE0]; linarith [r1.2]
  · rw [le_div_iff₀ hE0]; linarith [r2.1]
  · rw [div_le_iff₀ hE0]; linarith [r2.2]

lemma lag_I (theta : Theta) (he : etaS theta = 2 / 9) (hc1 : theta.chi1 = 0.9) (hc2 : theta.chi2 = -0.9) {R d : ℝ}
    (hR : 0.10117 ≤ R ∧ R ≤ 0.10138) (hd : 0.01240 ≤ d ∧ d ≤ 0.01261) {i : ℝ} (hi : (-1061.8) ≤ i ∧ i ≤ (-1058.5)) :
    (-249.8) < i - slopeMid (get_coeffs theta) (2 / 9) 0.018 + slopeMid (get_coeffs theta) (2 / 9) (R / 2)
      - slopeRing (get_coeffs theta) (2 / 9) R d (R / 2) ∧
    i - slopeMid (get_coeffs theta) (2 / 9) 0.018 + slopeMid (get_coeffs theta) (2 / 9) (R / 2)
      - slopeRing (get_coeffs theta) (2 / 9) R d (R / 2) < (-243.5) := by
  have b5 := c5_I theta he hc1 hc2
  have b6 := c6_I theta he hc1 hc2
  have b11 := c11_I theta he hc1 hc2
  have b12 := c12_I theta he hc1 hc2
  have b13 := c13_I theta he hc1 hc2
  have b14 := c14_I theta he hc1 hc2
  have b15 := c15_I theta he hc1 hc2
  have b16 := c16_I theta he hc1 hc2
  have b17 := c17_I theta he hc1 hc2
  have b18 := c18_I theta he hc1 hc2
  have hv : 0.47416 ≤ (R / 2) ^ ((1 : ℝ) / 4) ∧ (R / 2) ^ ((1 : ℝ) / 4) ≤ 0.47459 := by
    refine root_mem (n := 4) (by norm_num) (by norm_num) (by linarith [hR.1]) (by norm_num) (by norm_num) ?_ ?_ rfl
    · norm_num; linarith [hR.1]
    · norm_num; linarith [hR.2]
  unfold slopeMid slopeRing
  generalize (R / 2) ^ ((1 : ℝ) / 4) = v at *
  generalize get_coeffs theta 5 = c5 at *
  generalize get_coeffs theta 6 = c6 at *
  generalize get_coeffs theta 11 = c11 at *
  generalize get_coeffs theta 12 = c12 at *
  generalize get_coeffs theta 13 = c13 at *
  generalize get_coeffs theta 14 = c14 at *
  generalize get_coeffs theta 15 = c15 at *
  generalize get_coeffs theta 16 = c16 at *
  generalize get_coeffs theta 17 = c17 at *
  generalize get_coeffs theta 18 = c18 at *
  constructor
  · rw [← sub_pos]
    interval_bnb [b11, b12, b13, b14, b15, b16, b17, b18, hR, hd, hi, hv] []
  · rw [← sub_pos]
    interval_bnb [b11, b12, b13, b14, b15, b16, b17, b18, hR, hd, hi, hv] []

lemma peak_I (theta : Theta) (he : etaS theta = 2 / 9) (hc1 : theta.chi1 = 0.9) (hc2 : theta.chi2 = -0.9) {R d : ℝ}
    (hR : 0.10117 ≤ R ∧ R ≤ 0.10138) (hd : 0.01240 ≤ d ∧ d ≤ 0.01261) :
    37.6 < slopeRing (get_coeffs theta) (2 / 9) R d R - slopeRing (get_coeffs theta) (2 / 9) R d
      |R + d * (-1 + Real.sqrt (1 - get_coeffs theta 5 ^ 2)) * get_coeffs theta 6 / get_coeffs theta 5| ∧
    slopeRing (get_coeffs theta) (2 / 9) R d R - slopeRing (get_coeffs theta) (2 / 9) R d
      |R + d * (-1 + Real.sqrt (1 - get_coeffs theta 5 ^ 2)) * get_coeffs theta 6 / get_coeffs theta 5| < 43.9 := by
  have b5 := c5_I theta he hc1 hc2
  have b6 := c6_I theta he hc1 hc2
  have b11 := c11_I theta he hc1 hc2
  have b12 := c12_I theta he hc1 hc2
  have b13 := c13_I theta he hc1 hc2
  have b14 := c14_I theta he hc1 hc2
  have b15 := c15_I theta he hc1 hc2
  have b16 := c16_I theta he hc1 hc2
  have b17 := c17_I theta he hc1 hc2
  have b18 := c18_I theta he hc1 hc2
  have hr : 0.430167 ≤ Real.sqrt (1 - get_coeffs theta 5 ^ 2) ∧ Real.sqrt (1 - get_coeffs theta 5 ^ 2) ≤ 0.430190 := by
    constructor
    · exact Real.le_sqrt_of_sq_le (by nlinarith)
    · rw [Real.sqrt_le_left (by norm_num)]; nlinarith
  have hP : 0.090601 < R + d * (-1 + Real.sqrt (1 - get_coeffs theta 5 ^ 2)) * get_coeffs theta 6 / get_coeffs theta 5 ∧
      R + d * (-1 + Real.sqrt (1 - get_coeffs theta 5 ^ 2)) * get_coeffs theta 6 / get_coeffs theta 5 < 0.091044 := by
    generalize Real.sqrt (1 - get_coeffs theta 5 ^ 2) = r at *
    generalize get_coeffs theta 5 = c5 at *
    generalize get_coeffs theta 6 = c6 at *
    generalize get_coeffs theta 11 = c11 at *
    generalize get_coeffs theta 12 = c12 at *
    generalize get_coeffs theta 13 = c13 at *
    generalize get_coeffs theta 14 = c14 at *
    generalize get_coeffs theta 15 = c15 at *
    generalize get_coeffs theta 16 = c16 at *
    generalize get_coeffs theta 17 = c17 at *
    generalize get_coeffs theta 18 = c18 at *
    constructor
    · rw [← sub_pos]; interval_bnb [b5, b6, hR, hd, hr] []
    · rw [← sub_pos]; interval_bnb [b5, b6, hR, hd, hr] []
  rw [abs_of_pos (by linarith [hP.1])]
  generalize R + d * (-1 + Real.sqrt (1 - get_coeffs theta 5 ^ 2)) * get_coeffs theta 6 / get_coeffs theta 5 = P at *
  replace hP := And.intro hP.1.le hP.2.le
  have hv : 0.56391 ≤ R ^ ((1 : ℝ) / 4) ∧ R ^ ((1 : ℝ) / 4) ≤ 0.56434 := by
    refine root_mem (n := 4) (by norm_num) (by norm_num) (by linarith [hR.1]) (by norm_num) (by norm_num) ?_ ?_ rfl
    · norm_num; linarith [hR.1]
    · norm_num; linarith [hR.2]
  have hw : 0.54845 ≤ P ^ ((1 : ℝ) / 4) ∧ P ^ ((1 : ℝ) / 4) ≤ 0.54948 := by
    refine root_mem (n := 4) (by norm_num) (by norm_num) (by linarith [hP.1]) (by norm_num) (by norm_num) ?_ ?_ rfl
    · norm_num; linarith [hP.1]
    · norm_num; linarith [hP.2]
  unfold slopeRing
  generalize R ^ ((1 : ℝ) / 4) = v at *
  generalize P ^ ((1 : ℝ) / 4) = w at *
  generalize get_coeffs theta 5 = c5 at *
  generalize get_coeffs theta 6 = c6 at *
  generalize get_coeffs theta 11 = c11 at *
  generalize get_coeffs theta 12 = c12 at *
  generalize get_coeffs theta 13 = c13 at *
  generalize get_coeffs theta 14 = c14 at *
  generalize get_coeffs theta 15 = c15 at *
  generalize get_coeffs theta 16 = c16 at *
  generalize get_coeffs theta 17 = c17 at *
  generalize get_coeffs theta 18 = c18 at *
  constructor
  · rw [← sub_pos]
    interval_bnb [b14, b15, b16, b17, b18, hR, hd, hP, hv, hw] []
  · rw [← sub_pos]
    interval_bnb [b14, b15, b16, b17, b18, hR, hd, hP, hv, hw] []


/-! ### eta = 1 / 4, spins 0, 0 -/

lemma x_II (theta : Theta) (he : etaS theta = 1 / 4) (hc1 : theta.chi1 = 0) (hc2 : theta.chi2 = 0) :
    (theta.chi1 + theta.chi2) / 2 * (1 - 76 * (1 / 4) / 113) + (1 - 4 * (1 / 4)) ^ ((1 : ℝ) / 2) * ((theta.chi1 - theta.chi2) / 2) - 1
      = -1 := by
  have _ := he
  rw [hc1, hc2, ← Real.sqrt_eq_rpow, show (1 - 4 * (1 / 4) : ℝ) = (0) ^ 2 by norm_num, Real.sqrt_sq (by norm_num)]
  norm_num

lemma c5_II (theta : Theta) (he : etaS theta = 1 / 4) (hc1 : theta.chi1 = 0) (hc2 : theta.chi2 = 0) :
    0.85190552 ≤ get_coeffs theta 5 ∧ get_coeffs theta 5 ≤ 0.85190555 := by
  rw [coeff_at theta 5 he (x_II theta he hc1 hc2)]
  simp only [PhenomD_coeff_table, Matrix.cons_val]
  norm_num

lemma c6_II (theta : Theta) (he : etaS theta = 1 / 4) (hc1 : theta.chi1 = 0) (hc2 : theta.chi2 = 0) :
    1.32183370 ≤ get_coeffs theta 6 ∧ get_coeffs theta 6 ≤ 1.32183373 := by
  rw [coeff_at theta 6 he (x_II theta he hc1 hc2)]
  simp only [PhenomD_coeff_table, Matrix.cons_val]
  norm_num

lemma c7_II (theta : Theta) (he : etaS theta = 1 / 4) (hc1 : theta.chi1 = 0) (hc2 : theta.chi2 = 0) :
    (-72.9615476) ≤ get_coeffs theta 7 ∧ get_coeffs theta 7 ≤ (-72.9615473) := by
  rw [coeff_at theta 7 he (x_II theta he hc1 hc2)]
  simp only [PhenomD_coeff_table, Matrix.cons_val]
  norm_num

lemma c8_II (theta : Theta) (he : etaS theta = 1 / 4) (hc1 : theta.chi1 = 0) (hc2 : theta.chi2 = 0) :
    (-910.127238) ≤ get_coeffs theta 8 ∧ get_coeffs theta 8 ≤ (-910.127235) := by
  rw [coeff_at theta 8 he (x_II theta he hc1 hc2)]
  simp only [PhenomD_coeff_table, Matrix.cons_val]
  norm_num

lemma c9_II (theta : Theta) (he : etaS theta = 1 / 4) (hc1 : theta.chi1 = 0) (hc2 : theta.chi2 = 0) :
    1309.99249 ≤ get_coeffs theta 9 ∧ get_coeffs theta 9 ≤ 1309.99252 := by
  rw [coeff_at theta 9 he (x_II theta he hc1 hc2)]
  simp only [PhenomD_coeff_table, Matrix.cons_val]
  norm_num

lemma c10_II (theta : Theta) (he : etaS theta = 1 / 4) (hc1 : theta.chi1 = 0) (hc2 : theta.chi2 = 0) :
    4809.36288 ≤ get_coeffs theta 10 ∧ get_coeffs theta 10 ≤ 4809.36291 := by
  rw [coeff_at theta 10 he (x_II theta he hc1 hc2)]
  simp only [PhenomD_coeff_table, Matrix.cons_val]
  norm_num

lemma c11_II (theta : Theta) (he : etaS theta = 1 / 4) (hc1 : theta.chi1 = 0) (hc2 : theta.chi2 = 0) :
    86.6425096 ≤ get_coeffs theta 11 ∧ get_coeffs theta 11 ≤ 86.6425099 := by
  rw [coeff_at theta 11 he (x_II theta he hc1 hc2)]
  simp only [PhenomD_coeff_table, Matrix.cons_val]
  norm_num

lemma c12_II (theta : Theta) (he : etaS theta = 1 / 4) (hc1 : theta.chi1 = 0) (hc2 : theta.chi2 = 0) :
    (-2.40899787) ≤ get_coeffs theta 12 ∧ get_coeffs theta 12 ≤ (-2.40899784) := by
  rw [coeff_at theta 12 he (x_II theta he hc1 hc2)]
  simp only [PhenomD_coeff_table, Matrix.cons_val]
  norm_num

lemma c13_II (theta : Theta) (he : etaS theta = 1 / 4) (hc1 : theta.chi1 = 0) (hc2 : theta.chi2 = 0) :
    (-0.00000967940203) ≤ get_coeffs theta 13 ∧ get_coeffs theta 13 ≤ (-0.00000967940200) := by
  rw [coeff_at theta 13 he (x_II theta he hc1 hc2)]
  simp only [PhenomD_coeff_table, Matrix.cons_val]
  norm_num

lemma c14_II (theta : Theta) (he : etaS theta = 1 / 4) (hc1 : theta.chi1 = 0) (hc2 : theta.chi2 = 0) :
    86.0219651 ≤ get_coeffs theta 14 ∧ get_coeffs theta 14 ≤ 86.0219654 := by
  rw [coeff_at theta 14 he (x_II theta he hc1 hc2)]
  simp only [PhenomD_coeff_table, Matrix.cons_val]
  norm_num

lemma c15_II (theta : Theta) (he : etaS theta = 1 / 4) (hc1 : theta.chi1 = 0) (hc2 : theta.chi2 = 0) :
    (-0.052683217) ≤ get_coeffs theta 15 ∧ get_coeffs theta 15 ≤ (-0.052683214) := by
  rw [coeff_at theta 15 he (x_II theta he hc1 hc2)]
  simp only [PhenomD_coeff_table, Matrix.cons_val]
  norm_num

lemma c16_II (theta : Theta) (he : etaS theta = 1 / 4) (hc1 : theta.chi1 = 0) (hc2 : theta.chi2 = 0) :
    (-14.4231544) ≤ get_coeffs theta 16 ∧ get_coeffs theta 16 ≤ (-14.4231541) := by
  rw [coeff_at theta 16 he (x_II theta he hc1 hc2)]
  simp only [PhenomD_coeff_table, Matrix.cons_val]
  norm_num

lemma c17_II (theta : Theta) (he : etaS theta = 1 / 4) (hc1 : theta.chi1 = 0) (hc2 : theta.chi2 = 0) :
    0.26614679 ≤ get_coeffs theta 17 ∧ get_coeffs theta 17 ≤ 0.26614682 := by
  rw [coeff_at theta 17 he (x_II theta he hc1 hc2)]
  simp only [PhenomD_coeff_table, Matrix.cons_val]
  norm_num

lemma c18_II (theta : Theta) (he : etaS theta = 1 / 4) (hc1 : theta.chi1 = 0) (hc2 : theta.chi2 = 0) :
    0.99313466 ≤ get_coeffs theta 18 ∧ get_coeffs theta 18 ≤ 0.99313469 := by
  rw [coeff_at theta 18 he (x_II theta he hc1 hc2)]
  simp only [PhenomD_coeff_table, Matrix.cons_val]
  norm_num

lemma ins_II (theta : Theta) (he : etaS theta = 1 / 4) (hc1 : theta.chi1 = 0) (hc2 : theta.chi2 = 0)
    (hX1 : theta.m1 * gt / (theta.m1 * gt + theta.m2 * gt) = 1 / 2) (hX2 : theta.m2 * gt / (theta.m1 * gt + theta.m2 * gt) = 1 / 2) :
    (-560.8) < slopeIns (get_inspiral_phase_coeffs theta) (get_coeffs theta) (1 / 4) 0.018 ∧
      slopeIns (get_inspiral_phase_coeffs theta) (get_coeffs theta) (1 / 4) 0.018 < (-557.5) := by
  have b7 := c7_II theta he hc1 hc2
  have b8 := c8_II theta he hc1 hc2
  have b9 := c9_II theta he hc1 hc2
  have b10 := c10_II theta he hc1 hc2
  have hu := u_box
  have hl := log_u_box hu
  have h4 := log4_box
  have hw := w_box
  have hp : 3.141592 ≤ Real.pi ∧ Real.pi ≤ 3.141593 := ⟨Real.pi_gt_d6.le, Real.pi_lt_d6.le⟩
  unfold slopeIns get_inspiral_phase_coeffs
  simp only
  rw [show theta.m1 * gt * (theta.m2 * gt) / (theta.m1 * gt + theta.m2 * gt) ^ 2 = 1 / 4 from he, hX1, hX2, hc1, hc2, w2_eq]
  simp only [PI, EulerGamma]
  clear he hc1 hc2 hX1 hX2
  generalize (Real.pi * 0.018) ^ ((1 : ℝ) / 3) = u at *
  generalize Real.log u = l at *
  generalize Real.log 4 = L at *
  generalize (0.018 : ℝ) ^ ((1 : ℝ) / 3) = v at *
  generalize get_coeffs theta 7 = c7 at *
  generalize get_coeffs theta 8 = c8 at *
  generalize get_coeffs theta 9 = c9 at *
  generalize get_coeffs theta 10 = c10 at *
  generalize Real.pi = p at *
  constructor
  · rw [← sub_pos]
    interval_bnb [b7, b8, b9, b10, hu, hl, h4, hw, hp] []
  · rw [← sub_pos]
    interval_bnb [b7, b8, b9, b10, hu, hl, h4, hw, hp] []

lemma rd_II {eps : ℝ} (e0 : 0 ≤ eps) (e1 : eps < 4e-6) (theta : Theta) (he : etaS theta = 1 / 4) (hc1 : theta.chi1 = 0) (hc2 : theta.chi2 = 0)
    (hX1 : theta.m1 * gt / (theta.m1 * gt + theta.m2 * gt) = 1 / 2) (hX2 : theta.m2 * gt / (theta.m1 * gt + theta.m2 * gt) = 1 / 2)
    (hM : 0 < Ms theta) :
    (0.08798 ≤ (get_fRD_fdamp (qnmTable eps) theta.m1 theta.m2 theta.chi1 theta.chi2).1 * Ms theta ∧
      (get_fRD_fdamp (qnmTable eps) theta.m1 theta.m2 theta.chi1 theta.chi2).1 * Ms theta ≤ 0.08819) ∧
    (0.01349 ≤ (get_fRD_fdamp (qnmTable eps) theta.m1 theta.m2 theta.chi1 theta.chi2).2 * Ms theta ∧
      (get_fRD_fdamp (qnmTable eps) theta.m1 theta.m2 theta.chi1 theta.chi2).2 * Ms theta ≤ 0.01370) := by
  have hS : (theta.chi1 * (theta.m1 * gt) ^ 2 + theta.chi2 * (theta.m2 * gt) ^ 2) / (theta.m1 * gt + theta.m2 * gt) ^ 2 = 0 := by
    rw [add_div, mul_div_assoc, mul_div_assoc, ← div_pow, ← div_pow, hX1, hX2, hc1, hc2]; norm_num
  have hE : 0.048387904 ≤ EradRational0815 (1 / 4) (0) (0) ∧ EradRational0815 (1 / 4) (0) (0) ≤ 0.048387907 := by
    unfold EradRational0815 EradRational0815_s
    simp only
    rw [show (1 - 4 * (1 / 4) : ℝ) = (0) ^ 2 by norm_num, Real.sqrt_sq (by norm_num)]
    norm_num
  have ha : 0.686417051 ≤ FinalSpin0815_s (1 / 4) (0) ∧ FinalSpin0815_s (1 / 4) (0) ≤ 0.686417054 := by
    unfold FinalSpin0815_s
    norm_num
  unfold get_fRD_fdamp
  simp only
  rw [show theta.m1 * gt * (theta.m2 * gt) / (theta.m1 * gt + theta.m2 * gt) ^ 2 = 1 / 4 from he, hS, hc1, hc2,
    show theta.m1 * gt + theta.m2 * gt = Ms theta from rfl, div_mul_cancel₀ _ hM.ne', div_mul_cancel₀ _ hM.ne',
    show (qnmTable eps).eps = eps from rfl]
  generalize FinalSpin0815_s (1 / 4) (0) = a at *
  generalize EradRational0815 (1 / 4) (0) (0) = E at *
  obtain ⟨-, r1, r2⟩ := C97_lookup e0 e1 a (by linarith [ha.1]) (by linarith [ha.2])
  have r1 := abs_le.1 (r1 (by linarith [ha.2]))
  have r2 := abs_le.1 r2
  generalize Jnp.interp eps a (qnmTable eps).a (qnmTable eps).fRD = y at *
  generalize Jnp.interp eps a (qnmTable eps).a (qnmTable eps).fdamp = z at *
  have k1 : 0.083763 < XAS.fRDof a 0 - 5.4e-5 := by
    unfold XAS.fRDof; simp only
    rw [← sub_pos]
    interval_bnb [ha] []
  have k2 : XAS.fRDof a 0 + 5.4e-5 < 0.083886 := by
    unfold XAS.fRDof; simp only
    rw [← sub_pos]
    interval_bnb [ha] []
  have k3 : 0.012866 < XAS.fdampOf a 0 - 6.1e-5 := by
    unfold XAS.fdampOf; simp only
    rw [← sub_pos]
    interval_bnb [ha] []
  have k4 : XAS.fdampOf a 0 + 6.1e-5 < 0.013009 := by
    unfold XAS.fdampOf; simp only
    rw [← sub_pos]
    interval_bnb [ha] []
  have hE0 : 0 < 1 - E := by linarith [hE.2]
  obtain ⟨E1, E2⟩ := hE
  refine ⟨⟨?_, ?_⟩, ⟨?_, ?_⟩⟩
  · rw [le_div_iff₀ hE0]; linarith [r1.1]
  · rw [div_le_iff₀ hE0]; linarith [r1.2]
  · rw [le_div_iff₀ hE0]; linarith [r2.1]
  · rw [div_le_iff₀ hE0]; linarith [r2.2]

lemma lag_II (theta : Theta) (he : etaS theta = 1 / 4) (hc1 : theta.chi1 = 0) (hc2 : theta.chi2 = 0) {R d : ℝ}
    (hR : 0.08798 ≤ R ∧ R ≤ 0.08819) (hd : 0.01349 ≤ d ∧ d ≤ 0.01370) {i : ℝ} (hi : (-560.8) ≤ i ∧ i ≤ (-557.5)) :
    (-3.7) < i - slopeMid (get_coeffs theta) (1 / 4) 0.018 + slopeMid (get_coeffs theta) (1 / 4) (R / 2)
      - slopeRing (get_coeffs theta) (1 / 4) R d (R / 2) ∧
    i - slopeMid (get_coeffs theta) (1 / 4) 0.018 + slopeMid (get_coeffs theta) (1 / 4) (R / 2)
      - slopeRing (get_coeffs theta) (1 / 4) R d (R / 2) < 2.6 := by
  have b5 := c5_II theta he hc1 hc2
  have b6 := c6_II theta he hc1 hc2
  have b11 := c11_II theta he hc1 hc2
  have b12 := c12_II theta he hc1 hc2
  have b13 := c13_II theta he hc1 hc2
  have b14 := c14_II theta he hc1 hc2
  have b15 := c15_II theta he hc1 hc2
  have b16 := c16_II theta he hc1 hc2
  have b17 := c17_II theta he hc1 hc2
  have b18 := c18_II theta he hc1 hc2
  have hv : 0.45790 ≤ (R / 2) ^ ((1 : ℝ) / 4) ∧ (R / 2) ^ ((1 : ℝ) / 4) ≤ 0.45833 := by
    refine root_mem (n := 4) (by norm_num) (by norm_num) (by linarith [hR.1]) (by norm_num) (by norm_num) ?_ ?_ rfl
    · norm_num; linarith [hR.1]
    · norm_num; linarith [hR.2]
  unfold slopeMid slopeRing
  generalize (R / 2) ^ ((1 : ℝ) / 4) = v at *
  generalize get_coeffs theta 5 = c5 at *
  generalize get_coeffs theta 6 = c6 at *
  generalize get_coeffs theta 11 = c11 at *
  generalize get_coeffs theta 12 = c12 at *
  generalize get_coeffs theta 13 = c13 at *
  generalize get_coeffs theta 14 = c14 at *
  generalize get_coeffs theta 15 = c15 at *
  generalize get_coeffs theta 16 = c16 at *
  generalize get_coeffs theta 17 = c17 at *
  generalize get_coeffs theta 18 = c18 at *
  constructor
  · rw [← sub_pos]
    interval_bnb [b11, b12, b13, b14, b15, b16, b17, b18, hR, hd, hi, hv] []
  · rw [← sub_pos]
    interval_bnb [b11, b12, b13, b14, b15, b16, b17, b18, hR, hd, hi, hv] []

lemma peak_II (theta : Theta) (he : etaS theta = 1 / 4) (hc1 : theta.chi1 = 0) (hc2 : theta.chi2 = 0) {R d : ℝ}
    (hR : 0.08798 ≤ R ∧ R ≤ 0.08819) (hd : 0.01349 ≤ d ∧ d ≤ 0.01370) :
    32.9 < slopeRing (get_coeffs theta) (1 / 4) R d R - slopeRing (get_coeffs theta) (1 / 4) R d
      |R + d * (-1 + Real.sqrt (1 - get_coeffs theta 5 ^ 2)) * get_coeffs theta 6 / get_coeffs theta 5| ∧
    slopeRing (get_coeffs theta) (1 / 4) R d R - slopeRing (get_coeffs theta) (1 / 4) R d
      |R + d * (-1 + Real.sqrt (1 - get_coeffs theta 5 ^ 2)) * get_coeffs theta 6 / get_coeffs theta 5| < 39.2 := by
  have b5 := c5_II theta he hc1 hc2
  have b6 := c6_II theta he hc1 hc2
  have b11 := c11_II theta he hc1 hc2
  have b12 := c12_II theta he hc1 hc2
  have b13 := c13_II theta he hc1 hc2
  have b14 := c14_II theta he hc1 hc2
  have b15 := c15_II theta he hc1 hc2
  have b16 := c16_II theta he hc1 hc2
  have b17 := c17_II theta he hc1 hc2
  have b18 := c18_II theta he hc1 hc2
  have hr : 0.523684 ≤ Real.sqrt (1 - get_coeffs theta 5 ^ 2) ∧ Real.sqrt (1 - get_coeffs theta 5 ^ 2) ≤ 0.523707 := by
    constructor
    · exact Real.le_sqrt_of_sq_le (by nlinarith)
    · rw [Real.sqrt_le_left (by norm_num)]; nlinarith
  have hP : 0.077818 < R + d * (-1 + Real.sqrt (1 - get_coeffs theta 5 ^ 2)) * get_coeffs theta 6 / get_coeffs theta 5 ∧
      R + d * (-1 + Real.sqrt (1 - get_coeffs theta 5 ^ 2)) * get_coeffs theta 6 / get_coeffs theta 5 < 0.078261 := by
    generalize Real.sqrt (1 - get_coeffs theta 5 ^ 2) = r at *
    generalize get_coeffs theta 5 = c5 at *
    generalize get_coeffs theta 6 = c6 at *
    generalize get_coeffs theta 11 = c11 at *
    generalize get_coeffs theta 12 = c12 at *
    generalize get_coeffs theta 13 = c13 at *
    generalize get_coeffs theta 14 = c14 at *
    generalize get_coeffs theta 15 = c15 at *
    generalize get_coeffs theta 16 = c16 at *
    generalize get_coeffs theta 17 = c17 at *
    generalize get_coeffs theta 18 = c18 at *
    constructor
    · rw [← sub_pos]; interval_bnb [b5, b6, hR, hd, hr] []
    · rw [← sub_pos]; interval_bnb [b5, b6, hR, hd, hr] []
  rw [abs_of_pos (by linarith [hP.1])]
  generalize R + d * (-1 + Real.sqrt (1 - get_coeffs theta 5 ^ 2)) * get_coeffs theta 6 / get_coeffs theta 5 = P at *
  replace hP := And.intro hP.1.le hP.2.le
  have hv : 0.54457 ≤ R ^ ((1 : ℝ) / 4) ∧ R ^ ((1 : ℝ) / 4) ≤ 0.54500 := by
    refine root_mem (n := 4) (by norm_num) (by norm_num) (by linarith [hR.1]) (by norm_num) (by norm_num) ?_ ?_ rfl
    · norm_num; linarith [hR.1]
    · norm_num; linarith [hR.2]
  have hw : 0.52803 ≤ P ^ ((1 : ℝ) / 4) ∧ P ^ ((1 : ℝ) / 4) ≤ 0.52906 := by
    refine root_mem (n := 4) (by norm_num) (by norm_num) (by linarith [hP.1]) (by norm_num) (by norm_num) ?_ ?_ rfl
    · norm_num; linarith [hP.1]
    · norm_num; linarith [hP.2]
  unfold slopeRing
  generalize R ^ ((1 : ℝ) / 4) = v at *
  generalize P ^ ((1 : ℝ) / 4) = w at *
  generalize get_coeffs theta 5 = c5 at *
  generalize get_coeffs theta 6 = c6 at *
  generalize get_coeffs theta 11 = c11 at *
  generalize get_coeffs theta 12 = c12 at *
  generalize get_coeffs theta 13 = c13 at *
  generalize get_coeffs theta 14 = c14 at *
  generalize get_coeffs theta 15 = c15 at *
  generalize get_coeffs theta 16 = c16 at *
  generalize get_coeffs theta 17 = c17 at *
  generalize get_coeffs theta 18 = c18 at *
  constructor
  · rw [← sub_pos]
    interval_bnb [b14, b15, b16, b17, b18, hR, hd, hP, hv, hw] []
  · rw [← sub_pos]
    interval_bnb [b14, b15, b16, b17, b18, hR, hd, hP, hv, hw] []


end PhenomD
end Ripple

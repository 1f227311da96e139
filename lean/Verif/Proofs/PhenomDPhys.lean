/-
  Ranges of the PhenomD fit coefficients that enter the transition frequencies, for all physical mass ratios and spins.
-/
import Verif.Proofs.PhenomDGen
import Verif.Props.PhenomD
import Verif.Spec.QnmTable

namespace Ripple
namespace PhenomD

/-- |chiPN| ≤ 1 -/
lemma chiPN_range {e c1 c2 : ℝ} (h0 : 0 ≤ e) (h4 : e ≤ 1 / 4) (h1 : |c1| ≤ 1) (h2 : |c2| ≤ 1) :
    -2 ≤ (c1 + c2) / 2 * (1 - 76 * e / 113) + (1 - 4 * e) ^ ((1 : ℝ) / 2) * ((c1 - c2) / 2) - 1 ∧
    (c1 + c2) / 2 * (1 - 76 * e / 113) + (1 - 4 * e) ^ ((1 : ℝ) / 2) * ((c1 - c2) / 2) - 1 ≤ 0 := by
  rw [← Real.sqrt_eq_rpow]
  set d := Real.sqrt (1 - 4 * e) with hd
  have d0 : 0 ≤ d := Real.sqrt_nonneg _
  have d2 : d ^ 2 = 1 - 4 * e := Real.sq_sqrt (by linarith)
  have d1 : d ≤ 1 - 76 * e / 113 := by
    rw [hd]
    refine Real.sqrt_le_iff.2 ⟨by linarith, by nlinarith⟩
  obtain ⟨a1, a2⟩ := abs_le.1 h1
  obtain ⟨b1, b2⟩ := abs_le.1 h2
  have p : 0 ≤ (1 - 76 * e / 113 + d) / 2 := by linarith
  have r : 0 ≤ (1 - 76 * e / 113 - d) / 2 := by linarith
  have e1 : (c1 + c2) / 2 * (1 - 76 * e / 113) + d * ((c1 - c2) / 2) =
    c1 * ((1 - 76 * e / 113 + d) / 2) + c2 * ((1 - 76 * e / 113 - d) / 2) := by ring
  rw [e1]
  have u1 := mul_le_mul_of_nonneg_right a1 p
  have u2 := mul_le_mul_of_nonneg_right a2 p
  have v1 := mul_le_mul_of_nonneg_right b1 r
  have v2 := mul_le_mul_of_nonneg_right b2 r
  constructor <;> linarith

/-- the twelve products of the Bernstein basis of degree (2,3) on [0,1/4] × [-2,0] -/
lemma bernstein {e x : ℝ} (h0 : 0 ≤ e) (h4 : e ≤ 1 / 4) (hx : -2 ≤ x) (hx' : x ≤ 0) (i j k l : ℕ) :
    0 ≤ e ^ i * (1 - 4 * e) ^ j * ((-x) ^ k * (2 + x) ^ l) := by
  have a : 0 ≤ 1 - 4 * e := by linarith
  have b : 0 ≤ -x := by linarith
  have c : 0 ≤ 2 + x := by linarith
  positivity

lemma gamma1_lo {e x : ℝ} (h0 : 0 ≤ e) (h4 : e ≤ 1 / 4) (hx : -2 ≤ x) (hx' : x ≤ 0) :
    0.001 ≤ PhenomD_coeff_table 4 0 + PhenomD_coeff_table 4 1 * e + x * (PhenomD_coeff_table 4 2 + PhenomD_coeff_table 4 3 * e + PhenomD_coeff_table 4 4 * e ^ 2)
      + x ^ 2 * (PhenomD_coeff_table 4 5 + PhenomD_coeff_table 4 6 * e + PhenomD_coeff_table 4 7 * e ^ 2)
      + x ^ 3 * (PhenomD_coeff_table 4 8 + PhenomD_coeff_table 4 9 * e + PhenomD_coeff_table 4 10 * e ^ 2) := by
  simp only [PhenomD_coeff_table, Matrix.cons_val]
  linarith [bernstein h0 h4 hx hx' 0 2 0 3, bernstein h0 h4 hx hx' 0 2 1 2, bernstein h0 h4 hx hx' 0 2 2 1, bernstein h0 h4 hx hx' 0 2 3 0,
    bernstein h0 h4 hx hx' 1 1 0 3, bernstein h0 h4 hx hx' 1 1 1 2, bernstein h0 h4 hx hx' 1 1 2 1, bernstein h0 h4 hx hx' 1 1 3 0,
    bernstein h0 h4 hx hx' 2 0 0 3, bernstein h0 h4 hx hx' 2 0 1 2, bernstein h0 h4 hx hx' 2 0 2 1, bernstein h0 h4 hx hx' 2 0 3 0]

lemma gamma2_lo {e x : ℝ} (h0 : 0 ≤ e) (h4 : e ≤ 1 / 4) (hx : -2 ≤ x) (hx' : x ≤ 0) :
    0.25 ≤ PhenomD_coeff_table 5 0 + PhenomD_coeff_table 5 1 * e + x * (PhenomD_coeff_table 5 2 + PhenomD_coeff_table 5 3 * e + PhenomD_coeff_table 5 4 * e ^ 2)
      + x ^ 2 * (PhenomD_coeff_table 5 5 + PhenomD_coeff_table 5 6 * e + PhenomD_coeff_table 5 7 * e ^ 2)
      + x ^ 3 * (PhenomD_coeff_table 5 8 + PhenomD_coeff_table 5 9 * e + PhenomD_coeff_table 5 10 * e ^ 2) := by
  simp only [PhenomD_coeff_table, Matrix.cons_val]
  linarith [bernstein h0 h4 hx hx' 0 2 0 3, bernstein h0 h4 hx hx' 0 2 1 2, bernstein h0 h4 hx hx' 0 2 2 1, bernstein h0 h4 hx hx' 0 2 3 0,
    bernstein h0 h4 hx hx' 1 1 0 3, bernstein h0 h4 hx hx' 1 1 1 2, bernstein h0 h4 hx hx' 1 1 2 1, bernstein h0 h4 hx hx' 1 1 3 0,
    bernstein h0 h4 hx hx' 2 0 0 3, bernstein h0 h4 hx hx' 2 0 1 2, bernstein h0 h4 hx hx' 2 0 2 1, bernstein h0 h4 hx hx' 2 0 3 0]

lemma gamma3_lo {e x : ℝ} (h0 : 0 ≤ e) (h4 : e ≤ 1 / 4) (hx : -2 ≤ x) (hx' : x ≤ 0) :
    1.1 ≤ PhenomD_coeff_table 6 0 + PhenomD_coeff_table 6 1 * e + x * (PhenomD_coeff_table 6 2 + PhenomD_coeff_table 6 3 * e + PhenomD_coeff_table 6 4 * e ^ 2)
      + x ^ 2 * (PhenomD_coeff_table 6 5 + PhenomD_coeff_table 6 6 * e + PhenomD_coeff_table 6 7 * e ^ 2)
      + x ^ 3 * (PhenomD_coeff_table 6 8 + PhenomD_coeff_table 6 9 * e + PhenomD_coeff_table 6 10 * e ^ 2) := by
  simp only [PhenomD_coeff_table, Matrix.cons_val]
  linarith [bernstein h0 h4 hx hx' 0 2 0 3, bernstein h0 h4 hx hx' 0 2 1 2, bernstein h0 h4 hx hx' 0 2 2 1, bernstein h0 h4 hx hx' 0 2 3 0,
    bernstein h0 h4 hx hx' 1 1 0 3, bernstein h0 h4 hx hx' 1 1 1 2, bernstein h0 h4 hx hx' 1 1 2 1, bernstein h0 h4 hx hx' 1 1 3 0,
    bernstein h0 h4 hx hx' 2 0 0 3, bernstein h0 h4 hx hx' 2 0 1 2, bernstein h0 h4 hx hx' 2 0 2 1, bernstein h0 h4 hx hx' 2 0 3 0]

lemma gamma3_hi {e x : ℝ} (h0 : 0 ≤ e) (h4 : e ≤ 1 / 4) (hx : -2 ≤ x) (hx' : x ≤ 0) :
    PhenomD_coeff_table 6 0 + PhenomD_coeff_table 6 1 * e + x * (PhenomD_coeff_table 6 2 + PhenomD_coeff_table 6 3 * e + PhenomD_coeff_table 6 4 * e ^ 2)
      + x ^ 2 * (PhenomD_coeff_table 6 5 + PhenomD_coeff_table 6 6 * e + PhenomD_coeff_table 6 7 * e ^ 2)
      + x ^ 3 * (PhenomD_coeff_table 6 8 + PhenomD_coeff_table 6 9 * e + PhenomD_coeff_table 6 10 * e ^ 2) ≤ 1.5 := by
  simp only [PhenomD_coeff_table, Matrix.cons_val]
  linarith [bernstein h0 h4 hx hx' 0 2 0 3, bernstein h0 h4 hx hx' 0 2 1 2, bernstein h0 h4 hx hx' 0 2 2 1, bernstein h0 h4 hx hx' 0 2 3 0,
    bernstein h0 h4 hx hx' 1 1 0 3, bernstein h0 h4 hx hx' 1 1 1 2, bernstein h0 h4 hx hx' 1 1 2 1, bernstein h0 h4 hx hx' 1 1 3 0,
    bernstein h0 h4 hx hx' 2 0 0 3, bernstein h0 h4 hx hx' 2 0 1 2, bernstein h0 h4 hx hx' 2 0 2 1, bernstein h0 h4 hx hx' 2 0 3 0]

lemma frac_bound' {a p r : ℝ} (a0 : 0 < a) (p0 : -0.14 ≤ p) (p1 : p ≤ 0.14)
    (h : (a < 0.0505 ∧ -0.68 ≤ r) ∨ (a < 0.04 ∧ -0.75 ≤ r)) : a * (1 + p) / (1 + r) < 1 / 5 := by
  rcases h with ⟨a1, r0⟩ | ⟨a1, r0⟩
  · have h1 : 0 < 1 + r := by linarith
    rw [div_lt_iff₀ h1]
    have : a * (1 + p) < 0.0505 * 1.2 := mul_lt_mul'' a1 (by linarith) a0.le (by linarith)
    linarith
  · have h1 : 0 < 1 + r := by linarith
    rw [div_lt_iff₀ h1]
    have : a * (1 + p) < 0.04 * 1.2 := mul_lt_mul'' a1 (by linarith) a0.le (by linarith)
    linarith

lemma Erad_s_lt {eta s : ℝ} (h0 : 0 < eta) (h4 : eta ≤ 1 / 4) (hs : |s| ≤ 1) :
    EradRational0815_s eta s < 1 / 5 := by
  have e2' : 0 < eta * eta := by positivity
  have e3' : 0 < eta * eta * eta := by positivity
  have e4' : 0 < eta * eta * eta * eta := by positivity
  have e2 : eta * eta ≤ 1 / 16 := by nlinarith
  have e3'' : eta * eta * eta ≤ 1 / 4 * (eta * eta) := by nlinarith
  have e4 : eta * eta * eta * eta ≤ 1 / 4 * (eta * eta * eta) := by nlinarith
  unfold EradRational0815_s
  simp only
  have hb := mul_bound (b := -0.0030302335878845507 - 2.0066110851351073 * eta + 7.7050567802399215 * (eta * eta))
    (B := 0.14) (abs_le.2 ⟨by nlinarith [sq_nonneg (eta - 0.1302)], by nlinarith⟩) hs
  refine frac_bound' (by linarith) hb.1 hb.2 ?_
  rcases le_total eta 0.2 with h | h
  · right
    refine ⟨?_, ?_⟩
    · have : eta * eta ≤ 0.04 := by nlinarith
      linarith
    · exact (mul_bound (b := -0.6714403054720589 - 1.4756929437702908 * eta + 7.304676214885011 * (eta * eta))
        (B := 0.75) (abs_le.2 ⟨by nlinarith [sq_nonneg (eta - 0.101)], by nlinarith⟩) hs).1
  · left
    refine ⟨?_, ?_⟩
    · have k3 : eta * eta * eta ≤ 1 / 64 := by nlinarith
      have : 0.055974469826360077 * eta + 0.5809510763115132 * (eta * eta) - 0.9606726679372312 * (eta * eta * eta) +
        3.352411249771192 * (eta * eta * eta * eta) ≤ 0.055974469826360077 * eta + 0.5809510763115132 * (eta * eta)
        - 0.12256 * (eta * eta * eta) := by linarith
      have k4 : 0.008 ≤ eta * eta * eta := by nlinarith
      linarith
    · exact (mul_bound (b := -0.6714403054720589 - 1.4756929437702908 * eta + 7.304676214885011 * (eta * eta))
        (B := 0.68) (abs_le.2 ⟨by nlinarith, by nlinarith⟩) hs).1

lemma Erad_lt (eta chi1 chi2 : ℝ) (h0 : 0 < eta) (h4 : eta ≤ 1 / 4) (h1 : |chi1| ≤ 1) (h2 : |chi2| ≤ 1) :
    EradRational0815 eta chi1 chi2 < 1 / 5 := by
  unfold EradRational0815
  simp only
  refine Erad_s_lt h0 h4 ?_
  set a := 0.5 * (1 + Real.sqrt (1 - 4 * eta)) * (0.5 * (1 + Real.sqrt (1 - 4 * eta))) with ha
  set b := 0.5 * (1 - Real.sqrt (1 - 4 * eta)) * (0.5 * (1 - Real.sqrt (1 - 4 * eta))) with hb
  have hs : 0 ≤ Real.sqrt (1 - 4 * eta) := Real.sqrt_nonneg _
  have a0 : 0 < a := by rw [ha]; positivity
  have b0 : 0 ≤ b := by rw [hb]; exact mul_self_nonneg _
  obtain ⟨p1, p2⟩ := abs_le.1 h1
  obtain ⟨q1, q2⟩ := abs_le.1 h2
  rw [abs_le, le_div_iff₀ (by linarith), div_le_iff₀ (by linarith)]
  constructor <;> nlinarith

/-- ringdown and damping frequency come from one rescaling of table values -/
lemma fRD_fdamp_range {q : QNM} (hq : q.Shipped) {theta : Theta} (h : theta.Physical) :
    ∃ y z w : ℝ, 0.046 ≤ y ∧ y ≤ 0.159 ∧ 0.0002 ≤ z ∧ z ≤ 0.0145 ∧ 1 < w ∧ w < 1.25 ∧
      (get_fRD_fdamp q theta.m1 theta.m2 theta.chi1 theta.chi2).1 = y * w / Ms theta ∧
      (get_fRD_fdamp q theta.m1 theta.m2 theta.chi1 theta.chi2).2 = z * w / Ms theta := by
  obtain ⟨e0, e4⟩ := eta_s_range h.m1_pos h.m2_pos
  obtain ⟨E0, _⟩ := C26_radiated_energy _ theta.chi1 theta.chi2 e0 e4 h.chi1_le h.chi2_le
  have E1 := Erad_lt _ theta.chi1 theta.chi2 e0 e4 h.chi1_le h.chi2_le
  unfold get_fRD_fdamp
  simp only
  set E := EradRational0815 (theta.m1 * gt * (theta.m2 * gt) / (theta.m1 * gt + theta.m2 * gt) ^ 2) theta.chi1 theta.chi2
    with hE
  set a := FinalSpin0815_s (theta.m1 * gt * (theta.m2 * gt) / (theta.m1 * gt + theta.m2 * gt) ^ 2)
    ((theta.chi1 * (theta.m1 * gt) ^ 2 + theta.chi2 * (theta.m2 * gt) ^ 2) / (theta.m1 * gt + theta.m2 * gt) ^ 2) with ha
  have r1 := interp_mem_range hq.eps_nonneg hq.good a q.fRD (lo := 0.046) (hi := 0.159)
    (fun k hk => hq.RD_range _ (Jnp.getD_mem (by have := hq.len_RD; omega)))
  have r2 := interp_mem_range hq.eps_nonneg hq.good a q.fdamp (lo := 0.0002) (hi := 0.0145)
    (fun k hk => hq.damp_range _ (Jnp.getD_mem (by have := hq.len_damp; omega)))
  have hp : 0 < 1 - E := by linarith
  refine ⟨_, _, 1 / (1 - E), r1.1, r1.2, r2.1, r2.2, ?_, ?_, ?_, ?_⟩
  · rw [lt_div_iff₀ hp]; linarith
  · rw [div_lt_iff₀ hp]; linarith
  · rw [mul_one_div]; rfl
  · rw [mul_one_div]; rfl

lemma coeffs_range {theta : Theta} (h : theta.Physical) :
    0.001 ≤ get_coeffs theta 4 ∧ 0.25 ≤ get_coeffs theta 5 ∧ 1.1 ≤ get_coeffs theta 6 ∧ get_coeffs theta 6 ≤ 1.5 := by
  obtain ⟨e0, e4⟩ := eta_s_range h.m1_pos h.m2_pos
  have hx := chiPN_range e0.le e4 h.chi1_le h.chi2_le
  exact ⟨gamma1_lo e0.le e4 hx.1 hx.2, gamma2_lo e0.le e4 hx.1 hx.2, gamma3_lo e0.le e4 hx.1 hx.2,
    gamma3_hi e0.le e4 hx.1 hx.2⟩

open Classical in
/-- order of the amplitude regions from the ranges of the ringdown and damping frequencies -/
lemma regions_ordered {theta : Theta} (h : theta.Physical) (tf : TransFreqs)
    (e3' : tf.f3 = 0.014 / ((theta.m1 + theta.m2) * gt))
    (e4' : tf.f4 = if get_coeffs theta 5 ≥ 1 then |tf.f_RD + -tf.f_damp * get_coeffs theta 6 / get_coeffs theta 5|
      else |tf.f_RD + tf.f_damp * (-1 + Real.sqrt (1 - get_coeffs theta 5 ^ 2)) * get_coeffs theta 6 / get_coeffs theta 5|)
    {y z w : ℝ} (hr : 0.046 ≤ y ∧ y ≤ 0.159 ∧ 0.0002 ≤ z ∧ z ≤ 0.0145 ∧ 1 < w ∧ w < 1.25 ∧
      tf.f_RD = y * w / Ms theta ∧ tf.f_damp = z * w / Ms theta) :
    0 < tf.f3 ∧ tf.f3 < tf.f4 ∧ tf.f4 ≤ tf.f_RD ∧ tf.f_RD < 0.2 / ((theta.m1 + theta.m2) * gt) ∧ 0 < tf.f_damp ∧
      0 < get_coeffs theta 4 ∧ 0 < get_coeffs theta 5 ∧ 0 < get_coeffs theta 6 := by
  obtain ⟨y0, y1, z0, z1, w0, w1, eR, eD⟩ := hr
  obtain ⟨g1, g2, g3, g3'⟩ := coeffs_range h
  have hg := gt_pos
  have m1p := h.m1_pos
  have m2p := h.m2_pos
  have hM : 0 < Ms theta := by unfold Ms; positivity
  set c2 := get_coeffs theta 5
  set c3 := get_coeffs theta 6
  have e3 : tf.f3 = 0.014 / Ms theta := by rw [← Ms_eq]; exact e3'
  have key : ∃ s, 0 ≤ s ∧ s ≤ 1 ∧ tf.f4 = |tf.f_RD - tf.f_damp * c3 * s| := by
    by_cases hc : c2 ≥ 1
    · refine ⟨1 / c2, by positivity, ?_, ?_⟩
      · rw [div_le_one (by linarith)]; exact hc
      · rw [e4', if_pos hc]; congr 1; ring
    · have hc' : c2 < 1 := not_le.1 hc
      have s2 : Real.sqrt (1 - c2 ^ 2) ^ 2 = 1 - c2 ^ 2 := Real.sq_sqrt (by nlinarith)
      have s0 := Real.sqrt_nonneg (1 - c2 ^ 2)
      have s1 : Real.sqrt (1 - c2 ^ 2) ≤ 1 := by
        nlinarith [sq_nonneg c2]
      have c2p : 0 < c2 := by linarith
      refine ⟨(1 - Real.sqrt (1 - c2 ^ 2)) / c2, div_nonneg (by linarith) c2p.le, ?_, ?_⟩
      · rw [div_le_one c2p]
        nlinarith
      · rw [e4', if_neg hc]; congr 1; ring
  obtain ⟨s, s0, s1, e4⟩ := key
  have hb : 0 ≤ z * w * c3 * s ∧ z * w * c3 * s ≤ 0.0145 * w * 1.5 := by
    constructor
    · have : 0 < z := by linarith
      have : 0 < w := by linarith
      have : 0 < c3 := by linarith
      positivity
    · have a1 : z * w ≤ 0.0145 * w := mul_le_mul_of_nonneg_right z1 (by linarith)
      have a2 : z * w * c3 ≤ 0.0145 * w * 1.5 := mul_le_mul a1 g3' (by linarith) (by linarith)
      have a3 : 0 ≤ z * w * c3 := by
        have : 0 < z := by linarith
        have : 0 < w := by linarith
        have : 0 < c3 := by linarith
        positivity
      nlinarith
  have hyw : 0.046 * w ≤ y * w := mul_le_mul_of_nonneg_right y0 (by linarith)
  have e4'' : tf.f4 = (y * w - z * w * c3 * s) / Ms theta := by
    rw [e4, eR, eD, abs_of_nonneg]
    · ring
    · have : y * w / Ms theta - z * w / Ms theta * c3 * s = (y * w - z * w * c3 * s) / Ms theta := by ring
      rw [this]
      exact div_nonneg (by linarith [hb.2]) hM.le
  refine ⟨?_, ?_, ?_, ?_, ?_, by linarith, by linarith, by linarith⟩
  · rw [e3]; positivity
  · rw [e3, e4'']
    exact div_lt_div_of_pos_right (by linarith [hb.2]) hM
  · rw [e4'', eR]
    exact div_le_div_of_nonneg_right (by linarith [hb.1]) hM.le
  · rw [eR, Ms_eq]
    refine div_lt_div_of_pos_right ?_ hM
    nlinarith
  · rw [eD]
    have : 0 < z := by linarith
    have : 0 < w := by linarith
    positivity

end PhenomD
end Ripple

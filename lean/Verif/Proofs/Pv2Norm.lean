/-
  Helper lemmas about the PhenomPv2 generator: moduli of the circular polarisations.
-/
import Verif.Proofs.Pv2Gen

namespace Ripple
open Pv2 V3 PhenomD

/-! ### masses inside the twist -/

lemma twist_masses {m1 m2 : ℝ} (h2 : 0 < m2) (h : m2 ≤ m1) :
    let eta := m2 * m1 / ((m2 + m1) * (m2 + m1))
    let q := (1 + Real.sqrt (1 - 4 * eta) - 2 * eta) / (2 * eta)
    1 / (1 + q) = m2 / (m1 + m2) ∧ q / (1 + q) = m1 / (m1 + m2) := by
  intro eta q
  have h1 : 0 < m1 := lt_of_lt_of_le h2 h
  have hs : Real.sqrt (1 - 4 * eta) = (m1 - m2) / (m1 + m2) := by
    rw [show 1 - 4 * eta = ((m1 - m2) / (m1 + m2)) ^ 2 by simp only [eta]; field_simp; ring]
    exact Real.sqrt_sq (div_nonneg (by linarith) (by linarith))
  have hq : q = m1 / m2 := by
    simp only [q]; rw [hs]; simp only [eta]; field_simp; ring
  rw [hq]
  constructor <;> · field_simp; ring

lemma norm_factor (b th al : ℝ) :
    ‖((Real.cos (b / 2) : ℝ) : ℂ) * Complex.exp (Complex.I * (al : ℂ) / 2) * (Real.sin (th / 2) : ℝ)
        - ((Real.sin (b / 2) : ℝ) : ℂ) * (Complex.exp (Complex.I * (al : ℂ) / 2))⁻¹ * (Real.cos (th / 2) : ℝ)‖ ^ 2
      = (1 - (Real.cos b * Real.cos th + Real.sin b * Real.sin th * Real.cos al)) / 2 ∧
    ‖((Real.sin (b / 2) : ℝ) : ℂ) * (Complex.exp (Complex.I * (al : ℂ) / 2))⁻¹ * (Real.sin (th / 2) : ℝ)
        + ((Real.cos (b / 2) : ℝ) : ℂ) * Complex.exp (Complex.I * (al : ℂ) / 2) * (Real.cos (th / 2) : ℝ)‖ ^ 2
      = (1 + (Real.cos b * Real.cos th + Real.sin b * Real.sin th * Real.cos al)) / 2 := by
  have hcb : Real.cos b = Real.cos (b / 2) ^ 2 - Real.sin (b / 2) ^ 2 := by
    rw [← Real.cos_two_mul']; congr 1; ring
  have hsb : Real.sin b = 2 * Real.sin (b / 2) * Real.cos (b / 2) := by
    rw [← Real.sin_two_mul]; congr 1; ring
  have hct : Real.cos th = Real.cos (th / 2) ^ 2 - Real.sin (th / 2) ^ 2 := by
    rw [← Real.cos_two_mul']; congr 1; ring
  have hst : Real.sin th = 2 * Real.sin (th / 2) * Real.cos (th / 2) := by
    rw [← Real.sin_two_mul]; congr 1; ring
  have hb1 := Real.sin_sq_add_cos_sq (b / 2)
  have ht1 := Real.sin_sq_add_cos_sq (th / 2)
  have ha1 := Real.sin_sq_add_cos_sq al
  rw [hcb, hsb, hct, hst]
  set u := Complex.exp (Complex.I * (al : ℂ) / 2) with hu
  have hu0 : u ≠ 0 := Complex.exp_ne_zero _
  have hun : ‖u⁻¹‖ = 1 := by
    rw [hu, ← Complex.exp_neg, show -(Complex.I * (al : ℂ) / 2) = ((-al / 2 : ℝ) : ℂ) * Complex.I by push_cast; ring]
    exact Complex.norm_exp_ofReal_mul_I _
  have hu2 : u ^ 2 = (Real.cos al : ℂ) + (Real.sin al : ℂ) * Complex.I := by
    rw [hu, ← Complex.exp_nat_mul, show ((2 : ℕ) : ℂ) * (Complex.I * (al : ℂ) / 2) = (al : ℂ) * Complex.I by push_cast; ring,
      Complex.exp_mul_I, Complex.ofReal_cos, Complex.ofReal_sin]
  generalize Real.cos (b / 2) = c at *
  generalize Real.sin (b / 2) = s at *
  generalize Real.cos (th / 2) = C at *
  generalize Real.sin (th / 2) = S at *
  constructor
  · have e : (c : ℂ) * u * (S : ℂ) - s * u⁻¹ * C =
        u⁻¹ * (((c * S * Real.cos al - s * C : ℝ) : ℂ) + ((c * S * Real.sin al : ℝ) : ℂ) * Complex.I) := by
      have : (c : ℂ) * u * (S : ℂ) - s * u⁻¹ * C = u⁻¹ * (c * S * u ^ 2 - s * C) := by field_simp
      rw [this, hu2]; push_cast; ring
    rw [e, norm_mul, hun, one_mul, ← Complex.normSq_eq_norm_sq, Complex.normSq_add_mul_I]
    linear_combination c ^ 2 * S ^ 2 * ha1 + (1 / 2) * (C ^ 2 + S ^ 2) * hb1 + (1 / 2) * ht1
  · have e : (s : ℂ) * u⁻¹ * (S : ℂ) + c * u * C =
        u⁻¹ * (((s * S + c * C * Real.cos al : ℝ) : ℂ) + ((c * C * Real.sin al : ℝ) : ℂ) * Complex.I) := by
      have : (s : ℂ) * u⁻¹ * (S : ℂ) + c * u * C = u⁻¹ * (s * S + c * C * u ^ 2) := by field_simp
      rw [this, hu2]; push_cast; ring
    rw [e, norm_mul, hun, one_mul, ← Complex.normSq_eq_norm_sq, Complex.normSq_add_mul_I]
    linear_combination c ^ 2 * C ^ 2 * ha1 + (1 / 2) * (C ^ 2 + S ^ 2) * hb1 + (1 / 2) * ht1

lemma norm_cis (x : ℝ) : ‖((Real.cos x : ℝ) : ℂ) - Complex.I * ((Real.sin x : ℝ) : ℂ)‖ = 1 := by
  rw [show ((Real.cos x : ℝ) : ℂ) - Complex.I * ((Real.sin x : ℝ) : ℂ) = Complex.exp (((-x : ℝ) : ℂ) * Complex.I) by
    rw [Complex.exp_mul_I, ← Complex.ofReal_cos, ← Complex.ofReal_sin, Real.cos_neg, Real.sin_neg]; push_cast; ring]
  exact Complex.norm_exp_ofReal_mul_I _

lemma norm_corr (Q : QNM) (m1 m2 : ℝ) (s1 s2 : V3) (chip tc f : ℝ) : ‖corrP Q m1 m2 s1 s2 chip tc f‖ = 1 := by
  unfold corrP
  rw [norm_mul, norm_cis, one_mul,
    show -Complex.I * (f : ℂ) * (((m2 + m1) * gt : ℝ) : ℂ) * (tc : ℂ) = ((-(f * ((m2 + m1) * gt) * tc) : ℝ) : ℂ) * Complex.I by
      push_cast; ring]
  exact Complex.norm_exp_ofReal_mul_I _

lemma norm_hDs (Q : QNM) (m1 m2 : ℝ) (s1 s2 : V3) (chip pa D thr f : ℝ) :
    ‖hDs Q m1 m2 s1 s2 chip pa D thr f‖ =
      |ampAt (thetaP m1 m2 s1 s2) (get_coeffs (thetaP m1 m2 s1 s2)) (tfP Q m1 m2 s1 s2 chip) D thr f|
        / (2 * Real.sqrt (5 / (64 * PI))) := by
  unfold hDs
  have : ∀ x : ℝ, ‖Complex.exp (-Complex.I * (x : ℂ))‖ = 1 := fun x => by
    rw [show -Complex.I * (x : ℂ) = ((-x : ℝ) : ℂ) * Complex.I by push_cast; ring]
    exact Complex.norm_exp_ofReal_mul_I _
  rw [norm_mul, this, mul_one, Complex.norm_real, Real.norm_eq_abs, abs_div]
  congr 1
  exact abs_of_nonneg (by positivity)

lemma norm_rot (z : ℝ) (h : ℂ × ℂ) :
    ‖(rotP z h).1 - Complex.I * (rotP z h).2‖ = ‖h.1 - Complex.I * h.2‖ ∧
    ‖(rotP z h).1 + Complex.I * (rotP z h).2‖ = ‖h.1 + Complex.I * h.2‖ := by
  have hI : Complex.I ^ 2 = -1 := Complex.I_sq
  have e1 : (rotP z h).1 - Complex.I * (rotP z h).2 =
      (((Real.cos (-(2 * z)) : ℝ) : ℂ) - Complex.I * ((Real.sin (-(2 * z)) : ℝ) : ℂ)) * (h.1 - Complex.I * h.2) := by
    simp only [rotP, Real.cos_neg, Real.sin_neg]
    push_cast
    linear_combination ((Complex.sin (2 * z)) * h.2) * hI
  have e2 : (rotP z h).1 + Complex.I * (rotP z h).2 =
      (((Real.cos (2 * z) : ℝ) : ℂ) - Complex.I * ((Real.sin (2 * z) : ℝ) : ℂ)) * (h.1 + Complex.I * h.2) := by
    simp only [rotP]
    linear_combination (((Real.sin (2 * z) : ℝ) : ℂ) * h.2) * hI
  rw [e1, e2, norm_mul, norm_mul, norm_cis, norm_cis, one_mul, one_mul]
  exact ⟨rfl, rfl⟩

lemma norm_sqrt_ratio : Real.sqrt (5 / (4 * Real.pi)) / (2 * Real.sqrt (5 / (64 * PI))) = 2 := by
  have hpi := Real.pi_pos
  have r64 : Real.sqrt (5 / (64 * PI)) = Real.sqrt (5 / (4 * Real.pi)) / 4 := by
    rw [show (5 : ℝ) / (64 * PI) = 5 / (4 * Real.pi) / 4 ^ 2 by unfold PI; field_simp; norm_num,
      Real.sqrt_div (by positivity), Real.sqrt_sq (by norm_num)]
  have : 0 < Real.sqrt (5 / (4 * Real.pi)) := Real.sqrt_pos.2 (by positivity)
  rw [r64]
  field_simp
  norm_num

lemma twP_norm (Q : QNM) {m1 m2 : ℝ} (s1 s2 : V3) (D tc f_ref : ℝ) (c : Converted) (thr f : ℝ) (h2 : 0 < m2)
    (h : m2 ≤ m1) (hf : 0 < f) (hL : LplusS m1 m2 s1 s2 f ≠ 0) :
    let w := twP Q m1 m2 s1 s2 D tc f_ref c thr f
    let x := cosInst m1 m2 s1 s2 c f_ref f
    let A := ampAt (thetaP m1 m2 s1 s2) (get_coeffs (thetaP m1 m2 s1 s2)) (tfP Q m1 m2 s1 s2 c.chip) D thr f
    ‖w.1 - Complex.I * w.2‖ = |A| * (1 - x) ^ 2 / 2 ∧ ‖w.1 + Complex.I * w.2‖ = |A| * (1 + x) ^ 2 / 2 := by
  intro w x A
  have h1 : 0 < m1 := lt_of_lt_of_le h2 h
  have hgt := gt_pos
  have hpi := Real.pi_pos
  obtain ⟨q1, q2⟩ := twist_masses h2 h
  have hw := twist_eq f (hDs Q m1 m2 s1 s2 c.chip c.phi_aligned D thr f) (m2 * m1 / ((m2 + m1) * (m2 + m1)))
    s2.2.2 s1.2.2 c.chip (m2 + m1) (angP m1 m2 s1 s2 c.chip) c.thetaJN
    (alphaS (angP m1 m2 s1 s2 c.chip) (PI * ((m2 + m1) * gt) * f_ref) - c.alpha0)
    (epsS (angP m1 m2 s1 s2 c.chip) (PI * ((m2 + m1) * gt) * f_ref))
  simp only [q1, q2] at hw
  have hom : PI * (f * gt * (m2 + m1)) = Real.pi * ((m1 + m2) * gt) * f := by unfold PI; ring
  have hom' : PI * ((m2 + m1) * gt) * f_ref = Real.pi * ((m1 + m2) * gt) * f_ref := by unfold PI; ring
  have heta : m2 * m1 / ((m2 + m1) * (m2 + m1)) = m1 * m2 / (m1 + m2) ^ 2 := by
    rw [mul_comm m2 m1, add_comm m2 m1, sq]
  have hSL : s2.2.2 * (m2 / (m1 + m2)) * (m2 / (m1 + m2)) + s1.2.2 * (m1 / (m1 + m2)) * (m1 / (m1 + m2)) =
      (m1 ^ 2 * s1.2.2 + m2 ^ 2 * s2.2.2) / (m1 + m2) ^ 2 := by field_simp; ring
  have hSp : c.chip * (m1 / (m1 + m2) * (m1 / (m1 + m2))) = c.chip * (m1 / (m1 + m2)) ^ 2 := by ring
  have hv : 0 < vOf m1 m2 f := by unfold vOf; positivity
  have hW := C55_half_angle (vOf m1 m2 f) ((m1 ^ 2 * s1.2.2 + m2 ^ 2 * s2.2.2) / (m1 + m2) ^ 2)
    (m1 * m2 / (m1 + m2) ^ 2) (c.chip * (m1 / (m1 + m2)) ^ 2) hv hL
  have hb : Real.arctan |c.chip * (m1 / (m1 + m2)) ^ 2 / (orbitalL 1 (m1 * m2 / (m1 + m2) ^ 2) (vOf m1 m2 f)
      + (m1 ^ 2 * s1.2.2 + m2 ^ 2 * s2.2.2) / (m1 + m2) ^ 2)| = coneAngle m1 m2 s1 s2 c.chip f := rfl
  rw [hb] at hW
  rw [heta, hSL, hSp, hom, hom', show (Real.pi * ((m1 + m2) * gt) * f) ^ ((1 : ℝ) / 3) = vOf m1 m2 f from rfl, hW] at hw
  have hal : alphaS (angP m1 m2 s1 s2 c.chip) (Real.pi * ((m1 + m2) * gt) * f)
      - (alphaS (angP m1 m2 s1 s2 c.chip) (Real.pi * ((m1 + m2) * gt) * f_ref) - c.alpha0) =
      azimuth m1 m2 s1 s2 c f_ref f := by unfold azimuth; ring
  rw [hal] at hw
  obtain ⟨n1, n2⟩ := norm_factor (coneAngle m1 m2 s1 s2 c.chip f) c.thetaJN (azimuth m1 m2 s1 s2 c f_ref f)
  have hx : Real.cos (coneAngle m1 m2 s1 s2 c.chip f) * Real.cos c.thetaJN
      + Real.sin (coneAngle m1 m2 s1 s2 c.chip f) * Real.sin c.thetaJN * Real.cos (azimuth m1 m2 s1 s2 c f_ref f) = x := rfl
  rw [hx] at n1 n2
  have hI : Complex.I ^ 2 = -1 := Complex.I_sq
  have hwe : w = _ := rfl
  simp only [w, twP]
  rw [heta, hom', hw]
  have hexp : ∀ y : ℝ, ‖Complex.exp (-(2 * Complex.I) * (y : ℂ))‖ = 1 := fun y => by
    rw [show -(2 * Complex.I) * (y : ℂ) = ((-(2 * y) : ℝ) : ℂ) * Complex.I by push_cast; ring]
    exact Complex.norm_exp_ofReal_mul_I _
  have hH := norm_hDs Q m1 m2 s1 s2 c.chip c.phi_aligned D thr f
  have hcorr := norm_corr Q m1 m2 s1 s2 c.chip tc f
  have hpos : 0 < Real.sqrt (5 / (4 * Real.pi)) := Real.sqrt_pos.2 (by positivity)
  have hrat := norm_sqrt_ratio
  generalize corrP Q m1 m2 s1 s2 c.chip tc f = K at *
  generalize hDs Q m1 m2 s1 s2 c.chip c.phi_aligned D thr f = H at *
  simp only []
  constructor
  · rw [show ∀ e T T' : ℂ, e * (T + T') * K - Complex.I * (e * (Complex.I * (T - T')) * K) = 2 * e * T * K from
      fun e T T' => by linear_combination (-(e * (T - T') * K)) * hI]
    rw [norm_mul, norm_mul, norm_mul, norm_div, norm_mul, norm_mul, norm_pow, hcorr, hexp, hH,
      show ∀ y : ℂ, ‖y‖ ^ 4 = (‖y‖ ^ 2) ^ 2 from fun y => by ring, n1]
    simp only [Complex.norm_real, Real.norm_eq_abs, abs_of_pos hpos, Complex.norm_ofNat]
    rw [show (2 : ℝ) * (1 * (|A| / (2 * Real.sqrt (5 / (64 * PI)))) / 2) * (Real.sqrt (5 / (4 * Real.pi)) * ((1 - x) / 2) ^ 2) * 1
      = |A| * (Real.sqrt (5 / (4 * Real.pi)) / (2 * Real.sqrt (5 / (64 * PI)))) * ((1 - x) / 2) ^ 2 by ring, hrat]
    ring
  · rw [show ∀ e T T' : ℂ, e * (T + T') * K + Complex.I * (e * (Complex.I * (T - T')) * K) = 2 * e * T' * K from
      fun e T T' => by linear_combination (e * (T - T') * K) * hI]
    rw [norm_mul, norm_mul, norm_mul, norm_div, norm_mul, norm_mul, norm_pow, hcorr, hexp, hH,
      show ∀ y : ℂ, ‖y‖ ^ 4 = (‖y‖ ^ 2) ^ 2 from fun y => by ring, n2]
    simp only [Complex.norm_real, Real.norm_eq_abs, abs_of_pos hpos, Complex.norm_ofNat]
    rw [show (2 : ℝ) * (1 * (|A| / (2 * Real.sqrt (5 / (64 * PI)))) / 2) * (Real.sqrt (5 / (4 * Real.pi)) * ((1 + x) / 2) ^ 2) * 1
      = |A| * (Real.sqrt (5 / (4 * Real.pi)) / (2 * Real.sqrt (5 / (64 * PI)))) * ((1 + x) / 2) ^ 2 by ring, hrat]
    ring

end Ripple

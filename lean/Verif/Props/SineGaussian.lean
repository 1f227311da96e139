/-
  Properties C51–C53: the sine-Gaussian burst.
-/
import Verif.Model.SineGaussian
import Verif.Proofs.Index
import Mathlib.Analysis.SpecialFunctions.Gaussian.FourierTransform
import Mathlib.Data.List.GetD

namespace Ripple
open SineGaussian MeasureTheory

/-- plus polarisation at time `t` -/
noncomputable def sgPlus (Q f hrss ph e t : ℝ) : ℝ := (gen_SineGaussian_hphc [t] Q f hrss ph e).1.getD 0 0
/-- cross polarisation at time `t` -/
noncomputable def sgCross (Q f hrss ph e t : ℝ) : ℝ := (gen_SineGaussian_hphc [t] Q f hrss ph e).2.getD 0 0

/-- squared norm of the plus envelope -/
noncomputable def sgN (Q f c : ℝ) : ℝ := Q / (4 * f * Real.sqrt Real.pi) * (1 + c * Real.exp (-(Q ^ 2)))

lemma sg_fac (x y : ℝ) : Complex.exp ((x : ℂ) + (⟨0, y⟩ : ℂ)) =
    ⟨Real.exp x * Real.cos y, Real.exp x * Real.sin y⟩ := by
  apply Complex.ext
  · rw [Complex.exp_re]; simp
  · rw [Complex.exp_im]; simp

lemma sg_nplus (Q f ph : ℝ) : Q / (4 * f * Real.sqrt PI) * (1 + Real.exp (-Q * Q)) * Real.cos ph ^ 2 +
    Q / (4 * f * Real.sqrt PI) * (1 - Real.exp (-Q * Q)) * Real.sin ph ^ 2 = sgN Q f (Real.cos (2 * ph)) := by
  have h := Real.sin_sq_add_cos_sq ph
  rw [sgN, Real.cos_two_mul, show -Q * Q = -(Q ^ 2) by ring, show Real.sin ph ^ 2 = 1 - Real.cos ph ^ 2 by linarith, PI]
  ring

lemma sg_ncross (Q f ph : ℝ) : Q / (4 * f * Real.sqrt PI) * (1 + Real.exp (-Q * Q)) * Real.sin ph ^ 2 +
    Q / (4 * f * Real.sqrt PI) * (1 - Real.exp (-Q * Q)) * Real.cos ph ^ 2 = sgN Q f (-Real.cos (2 * ph)) := by
  have h := Real.sin_sq_add_cos_sq ph
  rw [sgN, Real.cos_two_mul, show -Q * Q = -(Q ^ 2) by ring, show Real.sin ph ^ 2 = 1 - Real.cos ph ^ 2 by linarith, PI]
  ring

lemma sgPlus_eq (Q f hrss ph e t : ℝ) : sgPlus Q f hrss ph e t =
    Real.exp (-((2 * Real.pi * f * t) ^ 2 / (2 * Q ^ 2))) * Real.cos (2 * Real.pi * f * t - ph) *
      (hrss * (semi_major_minor_from_e e).1 / Real.sqrt (sgN Q f (Real.cos (2 * ph)))) := by
  unfold sgPlus gen_SineGaussian_hphc
  simp only [List.map_cons, List.map_nil, List.zipWith_cons_cons, List.zipWith_nil_left, List.getD_cons_zero, sg_fac,
    sg_nplus]
  rw [show (2 * PI * f * t) ^ 2 / (-2 * Q ^ 2) = -((2 * Real.pi * f * t) ^ 2 / (2 * Q ^ 2)) by
    rw [PI, neg_mul, div_neg], PI]

lemma sgCross_eq (Q f hrss ph e t : ℝ) : sgCross Q f hrss ph e t =
    Real.exp (-((2 * Real.pi * f * t) ^ 2 / (2 * Q ^ 2))) * Real.sin (2 * Real.pi * f * t - ph) *
      (hrss * (semi_major_minor_from_e e).2 / Real.sqrt (sgN Q f (-Real.cos (2 * ph)))) := by
  unfold sgCross gen_SineGaussian_hphc
  simp only [List.map_cons, List.map_nil, List.zipWith_cons_cons, List.zipWith_nil_left, List.getD_cons_zero, sg_fac,
    sg_ncross]
  rw [show (2 * PI * f * t) ^ 2 / (-2 * Q ^ 2) = -((2 * Real.pi * f * t) ^ 2 / (2 * Q ^ 2)) by
    rw [PI, neg_mul, div_neg], PI]

lemma sgN_pos {Q f c : ℝ} (hQ : 0 < Q) (hf : 0 < f) (hc : |c| ≤ 1) : 0 < sgN Q f c := by
  unfold sgN
  have hpi := Real.pi_pos
  have h1 : Real.exp (-(Q ^ 2)) < 1 := by rw [Real.exp_lt_one_iff]; nlinarith
  have h2 := Real.exp_pos (-(Q ^ 2))
  have : 0 < 1 + c * Real.exp (-(Q ^ 2)) := by nlinarith [(abs_le.1 hc).1]
  positivity

/-! ### C52 ellipse -/

theorem C52_ellipse (e : ℝ) (h0 : 0 ≤ e) (h1 : e ≤ 1) :
    (semi_major_minor_from_e e).1 ^ 2 + (semi_major_minor_from_e e).2 ^ 2 = 1 ∧
    0 ≤ (semi_major_minor_from_e e).2 ∧ (semi_major_minor_from_e e).2 ≤ (semi_major_minor_from_e e).1 ∧
    (semi_major_minor_from_e e).2 ^ 2 = (semi_major_minor_from_e e).1 ^ 2 * (1 - e ^ 2) ∧
    0 < (semi_major_minor_from_e e).1 := by
  have p2 : 0 < 2 - e * e := by nlinarith
  have p1 : 0 ≤ 1 - e * e := by nlinarith
  have s2 := Real.sqrt_pos.2 p2
  have s1 := Real.sqrt_nonneg (1 - e * e)
  have q2 := Real.sq_sqrt p2.le
  have q1 := Real.sq_sqrt p1
  have l1 : Real.sqrt (1 - e * e) ≤ 1 := by rw [Real.sqrt_le_one]; nlinarith
  simp only [semi_major_minor_from_e]
  refine ⟨?_, by positivity, ?_, ?_, by positivity⟩
  · rw [mul_pow, q1, div_pow, q2, one_pow]
    rw [← mul_one_add, one_div, inv_mul_eq_div, div_eq_one_iff_eq p2.ne']
    ring
  · exact mul_le_of_le_one_right (by positivity) l1
  · rw [mul_pow, q1]; ring

theorem C52_circular : (semi_major_minor_from_e 0).1 = (semi_major_minor_from_e 0).2 := by
  simp [semi_major_minor_from_e]

theorem C52_linear : semi_major_minor_from_e 1 = (1, 0) := by
  simp only [semi_major_minor_from_e]; norm_num

/-- a linearly polarised burst has no cross polarisation -/
theorem C52_linear_cross (Q f hrss ph t : ℝ) : sgCross Q f hrss ph 1 t = 0 := by
  rw [sgCross_eq, C52_linear]; simp

/-! ### C53 envelope and symmetries -/

/-- Each sample depends on its own time only. -/
theorem C53_pointwise (grid : List ℝ) (Q f hrss ph e : ℝ) : gen_SineGaussian_hphc grid Q f hrss ph e =
    (grid.map (sgPlus Q f hrss ph e), grid.map (sgCross Q f hrss ph e)) := by
  unfold sgPlus sgCross gen_SineGaussian_hphc
  simp only [List.zipWith_map, List.zipWith_self, List.map_map]
  rfl

/-- Gaussian envelope: |h| ≤ |h at its maximal value h0| exp(-(2πft)²/(2Q²)), the constant not depending on t. -/
theorem C53_envelope (Q f hrss ph e t : ℝ) :
    |sgPlus Q f hrss ph e t| ≤ |hrss * (semi_major_minor_from_e e).1 / Real.sqrt (sgN Q f (Real.cos (2 * ph)))| *
      Real.exp (-((2 * Real.pi * f * t) ^ 2 / (2 * Q ^ 2))) ∧
    |sgCross Q f hrss ph e t| ≤ |hrss * (semi_major_minor_from_e e).2 / Real.sqrt (sgN Q f (-Real.cos (2 * ph)))| *
      Real.exp (-((2 * Real.pi * f * t) ^ 2 / (2 * Q ^ 2))) := by
  have key : ∀ E c h : ℝ, 0 < E → |c| ≤ 1 → |E * c * h| ≤ |h| * E := by
    intro E c h hE hc
    rw [abs_mul, abs_mul, abs_of_pos hE]
    nlinarith [mul_nonneg (mul_nonneg hE.le (abs_nonneg h)) (sub_nonneg.2 hc)]
  rw [sgPlus_eq, sgCross_eq]
  exact ⟨key _ _ _ (Real.exp_pos _) (Real.abs_cos_le_one _), key _ _ _ (Real.exp_pos _) (Real.abs_sin_le_one _)⟩

/-- Linear in hrss. -/
theorem C53_linear (Q f hrss ph e t k : ℝ) :
    sgPlus Q f (k * hrss) ph e t = k * sgPlus Q f hrss ph e t ∧
    sgCross Q f (k * hrss) ph e t = k * sgCross Q f hrss ph e t := by
  rw [sgPlus_eq, sgPlus_eq, sgCross_eq, sgCross_eq]
  constructor <;> ring

/-- Half a turn of phase flips both signs. -/
theorem C53_half_turn (Q f hrss ph e t : ℝ) :
    sgPlus Q f hrss (ph + Real.pi) e t = -sgPlus Q f hrss ph e t ∧
    sgCross Q f hrss (ph + Real.pi) e t = -sgCross Q f hrss ph e t := by
  have e2 : Real.cos (2 * (ph + Real.pi)) = Real.cos (2 * ph) := by
    rw [show 2 * (ph + Real.pi) = 2 * ph + 2 * Real.pi by ring, Real.cos_add_two_pi]
  have ec : Real.cos (2 * Real.pi * f * t - (ph + Real.pi)) = -Real.cos (2 * Real.pi * f * t - ph) := by
    rw [← sub_sub, Real.cos_sub_pi]
  have es : Real.sin (2 * Real.pi * f * t - (ph + Real.pi)) = -Real.sin (2 * Real.pi * f * t - ph) := by
    rw [← sub_sub, Real.sin_sub_pi]
  rw [sgPlus_eq, sgPlus_eq, sgCross_eq, sgCross_eq, e2, ec, es]
  constructor <;> ring

/-- At zero phase the plus polarisation is even and the cross polarisation odd in time. -/
theorem C53_parity (Q f hrss e t : ℝ) :
    sgPlus Q f hrss 0 e (-t) = sgPlus Q f hrss 0 e t ∧ sgCross Q f hrss 0 e (-t) = -sgCross Q f hrss 0 e t := by
  have e1 : 2 * Real.pi * f * -t - 0 = -(2 * Real.pi * f * t - 0) := by ring
  have e2 : (2 * Real.pi * f * -t) ^ 2 = (2 * Real.pi * f * t) ^ 2 := by ring
  rw [sgPlus_eq, sgPlus_eq, sgCross_eq, sgCross_eq, e1, Real.cos_neg, Real.sin_neg, e2]
  exact ⟨rfl, by ring⟩

/-! ### C51 root sum square -/

lemma gauss_cexp (Q f c : ℝ) (hQ : 0 < Q) (hf : 0 < f) :
    Integrable (fun t : ℝ => Complex.exp (-((2 * Real.pi * f / Q : ℝ) : ℂ) ^ 2 * (t : ℂ) ^ 2 +
      ((4 * Real.pi * f : ℝ) * Complex.I) * (t : ℂ) + ((c : ℝ) : ℂ) * Complex.I)) ∧
    ∫ t : ℝ, Complex.exp (-((2 * Real.pi * f / Q : ℝ) : ℂ) ^ 2 * (t : ℂ) ^ 2 +
      ((4 * Real.pi * f : ℝ) * Complex.I) * (t : ℂ) + ((c : ℝ) : ℂ) * Complex.I) =
      ((Q / (2 * f * Real.sqrt Real.pi) * Real.exp (-(Q ^ 2)) : ℝ) : ℂ) * Complex.exp ((c : ℝ) * Complex.I) := by
  have hpi := Real.pi_pos
  set B : ℝ := 2 * Real.pi * f / Q with hB
  have hBp : 0 < B := by positivity
  have hre : ((-(B : ℂ) ^ 2) : ℂ).re < 0 := by
    have : ((-(B : ℂ) ^ 2) : ℂ) = ((-(B ^ 2) : ℝ) : ℂ) := by push_cast; ring
    rw [this, Complex.ofReal_re]
    have : 0 < B ^ 2 := by positivity
    linarith
  refine ⟨integrable_cexp_quadratic' hre _ _, ?_⟩
  rw [integral_cexp_quadratic hre]
  have hsq : (Real.pi : ℂ) / -(-(B : ℂ) ^ 2) = (((Real.sqrt Real.pi / B) ^ 2 : ℝ) : ℂ) := by
    rw [neg_neg, div_pow, Real.sq_sqrt hpi.le]; push_cast; rfl
  have hroot : ((Real.pi : ℂ) / -(-(B : ℂ) ^ 2)) ^ (1 / 2 : ℂ) = ((Real.sqrt Real.pi / B : ℝ) : ℂ) := by
    have h0 : 0 ≤ (Real.sqrt Real.pi / B) ^ 2 := by positivity
    rw [hsq, show (1 / 2 : ℂ) = ((1 / 2 : ℝ) : ℂ) by norm_num, ← Complex.ofReal_cpow h0, ← Real.sqrt_eq_rpow,
      Real.sqrt_sq (by positivity)]
  have hval : Real.sqrt Real.pi / B = Q / (2 * f * Real.sqrt Real.pi) := by
    have := Real.mul_self_sqrt hpi.le
    rw [hB]
    field_simp
    rw [pow_two]; linarith
  have hexp : ((c : ℝ) : ℂ) * Complex.I - ((4 * Real.pi * f : ℝ) * Complex.I) ^ 2 / (4 * -(B : ℂ) ^ 2) =
      ((-(Q ^ 2) : ℝ) : ℂ) + (c : ℝ) * Complex.I := by
    have hB' : (B : ℂ) ≠ 0 := by exact_mod_cast hBp.ne'
    have : ((4 * Real.pi * f : ℝ) : ℂ) = 2 * (Q : ℂ) * (B : ℂ) := by
      have : 4 * Real.pi * f = 2 * Q * B := by rw [hB]; field_simp; ring
      rw [this]; push_cast; ring
    rw [this, mul_pow, Complex.I_sq]
    field_simp
    push_cast
    ring
  rw [hroot, hexp, hval, Complex.exp_add, Complex.ofReal_mul (_ / _), Complex.ofReal_exp, mul_assoc (_ : ℂ) (Complex.exp _)]

lemma gauss_cos (Q f c : ℝ) (hQ : 0 < Q) (hf : 0 < f) :
    Integrable (fun t : ℝ => Real.exp (-((2 * Real.pi * f / Q) ^ 2 * t ^ 2)) * Real.cos (4 * Real.pi * f * t + c)) ∧
    ∫ t : ℝ, Real.exp (-((2 * Real.pi * f / Q) ^ 2 * t ^ 2)) * Real.cos (4 * Real.pi * f * t + c) =
      Q / (2 * f * Real.sqrt Real.pi) * Real.exp (-(Q ^ 2)) * Real.cos c := by
  obtain ⟨hi, hv⟩ := gauss_cexp Q f c hQ hf
  have hre : ∀ t : ℝ, (Complex.exp (-((2 * Real.pi * f / Q : ℝ) : ℂ) ^ 2 * (t : ℂ) ^ 2 +
      ((4 * Real.pi * f : ℝ) * Complex.I) * (t : ℂ) + ((c : ℝ) : ℂ) * Complex.I)).re =
      Real.exp (-((2 * Real.pi * f / Q) ^ 2 * t ^ 2)) * Real.cos (4 * Real.pi * f * t + c) := by
    intro t
    have : -((2 * Real.pi * f / Q : ℝ) : ℂ) ^ 2 * (t : ℂ) ^ 2 +
      ((4 * Real.pi * f : ℝ) * Complex.I) * (t : ℂ) + ((c : ℝ) : ℂ) * Complex.I =
      ((-((2 * Real.pi * f / Q) ^ 2 * t ^ 2) : ℝ) : ℂ) + ((4 * Real.pi * f * t + c : ℝ) : ℂ) * Complex.I := by
      push_cast; ring
    rw [this, Complex.exp_re]
    simp [-Complex.ofReal_neg, -Complex.ofReal_mul, -Complex.ofReal_add, -Complex.ofReal_pow, -Complex.ofReal_div]
  have h1 := Complex.reCLM.integrable_comp hi
  have h2 := Complex.reCLM.integral_comp_comm hi
  simp only [Complex.reCLM_apply, hre] at h1 h2
  refine ⟨h1, ?_⟩
  rw [h2, hv, Complex.exp_mul_I, ← Complex.ofReal_cos, ← Complex.ofReal_sin]
  simp [-Complex.ofReal_mul, -Complex.ofReal_div, -Complex.ofReal_exp, -Complex.ofReal_cos, -Complex.ofReal_sin]

lemma gauss_one (Q f : ℝ) (hQ : 0 < Q) (hf : 0 < f) :
    Integrable (fun t : ℝ => Real.exp (-((2 * Real.pi * f / Q) ^ 2 * t ^ 2))) ∧
    ∫ t : ℝ, Real.exp (-((2 * Real.pi * f / Q) ^ 2 * t ^ 2)) = Q / (2 * f * Real.sqrt Real.pi) := by
  have hpi := Real.pi_pos
  have hB : 0 < 2 * Real.pi * f / Q := by positivity
  have h1 := integrable_exp_neg_mul_sq (b := (2 * Real.pi * f / Q) ^ 2) (by positivity)
  have h2 := integral_gaussian ((2 * Real.pi * f / Q) ^ 2)
  simp only [neg_mul] at h1 h2
  refine ⟨h1, ?_⟩
  rw [h2, Real.sqrt_div hpi.le, Real.sqrt_sq hB.le]
  have := Real.mul_self_sqrt hpi.le
  field_simp
  rw [pow_two]; linarith

lemma gauss_half (Q f c h : ℝ) (hQ : 0 < Q) (hf : 0 < f) :
    Integrable (fun t : ℝ => h ^ 2 * (1 / 2 * (Real.exp (-((2 * Real.pi * f / Q) ^ 2 * t ^ 2)) +
      Real.exp (-((2 * Real.pi * f / Q) ^ 2 * t ^ 2)) * Real.cos (4 * Real.pi * f * t + c)))) ∧
    ∫ t : ℝ, h ^ 2 * (1 / 2 * (Real.exp (-((2 * Real.pi * f / Q) ^ 2 * t ^ 2)) +
      Real.exp (-((2 * Real.pi * f / Q) ^ 2 * t ^ 2)) * Real.cos (4 * Real.pi * f * t + c))) =
      h ^ 2 * sgN Q f (Real.cos c) := by
  obtain ⟨a1, a2⟩ := gauss_one Q f hQ hf
  obtain ⟨b1, b2⟩ := gauss_cos Q f c hQ hf
  refine ⟨((a1.add b1).const_mul _).const_mul _, ?_⟩
  rw [integral_const_mul, integral_const_mul, integral_add a1 b1, a2, b2, sgN]
  ring

/-- The plus polarisation carries the fraction a² of hrss²... -/
theorem C51_plus (Q f hrss ph e : ℝ) (hQ : 0 < Q) (hf : 0 < f) :
    Integrable (fun t => sgPlus Q f hrss ph e t ^ 2) ∧
    ∫ t, sgPlus Q f hrss ph e t ^ 2 = hrss ^ 2 * (semi_major_minor_from_e e).1 ^ 2 := by
  have hN := sgN_pos (c := Real.cos (2 * ph)) hQ hf (Real.abs_cos_le_one _)
  set h := hrss * (semi_major_minor_from_e e).1 / Real.sqrt (sgN Q f (Real.cos (2 * ph))) with hh
  have e1 : ∀ t, sgPlus Q f hrss ph e t ^ 2 = h ^ 2 * (1 / 2 * (Real.exp (-((2 * Real.pi * f / Q) ^ 2 * t ^ 2)) +
      Real.exp (-((2 * Real.pi * f / Q) ^ 2 * t ^ 2)) * Real.cos (4 * Real.pi * f * t + -(2 * ph)))) := by
    intro t
    have eE : Real.exp (-((2 * Real.pi * f * t) ^ 2 / (2 * Q ^ 2))) ^ 2 =
        Real.exp (-((2 * Real.pi * f / Q) ^ 2 * t ^ 2)) := by
      rw [← Real.exp_nat_mul]; congr 1; push_cast; field_simp
    have eC : Real.cos (4 * Real.pi * f * t + -(2 * ph)) = 2 * Real.cos (2 * Real.pi * f * t - ph) ^ 2 - 1 := by
      rw [← Real.cos_two_mul]; congr 1; ring
    rw [sgPlus_eq, mul_pow, mul_pow, eE, eC, ← hh]
    ring
  obtain ⟨i1, i2⟩ := gauss_half Q f (-(2 * ph)) h hQ hf
  simp only [e1]
  refine ⟨i1, ?_⟩
  rw [i2, Real.cos_neg, hh, div_pow, Real.sq_sqrt hN.le]
  field_simp

/-- ... and the cross polarisation the fraction b². -/
theorem C51_cross (Q f hrss ph e : ℝ) (hQ : 0 < Q) (hf : 0 < f) :
    Integrable (fun t => sgCross Q f hrss ph e t ^ 2) ∧
    ∫ t, sgCross Q f hrss ph e t ^ 2 = hrss ^ 2 * (semi_major_minor_from_e e).2 ^ 2 := by
  have hN := sgN_pos (c := -Real.cos (2 * ph)) hQ hf (by rw [abs_neg]; exact Real.abs_cos_le_one _)
  set h := hrss * (semi_major_minor_from_e e).2 / Real.sqrt (sgN Q f (-Real.cos (2 * ph))) with hh
  have e1 : ∀ t, sgCross Q f hrss ph e t ^ 2 = h ^ 2 * (1 / 2 * (Real.exp (-((2 * Real.pi * f / Q) ^ 2 * t ^ 2)) +
      Real.exp (-((2 * Real.pi * f / Q) ^ 2 * t ^ 2)) * Real.cos (4 * Real.pi * f * t + (Real.pi - 2 * ph)))) := by
    intro t
    have eE : Real.exp (-((2 * Real.pi * f * t) ^ 2 / (2 * Q ^ 2))) ^ 2 =
        Real.exp (-((2 * Real.pi * f / Q) ^ 2 * t ^ 2)) := by
      rw [← Real.exp_nat_mul]; congr 1; push_cast; field_simp
    have eC : Real.cos (4 * Real.pi * f * t + (Real.pi - 2 * ph)) = 2 * Real.sin (2 * Real.pi * f * t - ph) ^ 2 - 1 := by
      rw [show 4 * Real.pi * f * t + (Real.pi - 2 * ph) = 2 * (2 * Real.pi * f * t - ph) + Real.pi by ring,
        Real.cos_add_pi, Real.cos_two_mul, Real.sin_sq]
      ring
    rw [sgCross_eq, mul_pow, mul_pow, eE, eC, ← hh]
    ring
  obtain ⟨i1, i2⟩ := gauss_half Q f (Real.pi - 2 * ph) h hQ hf
  simp only [e1]
  refine ⟨i1, ?_⟩
  rw [i2, Real.cos_pi_sub, hh, div_pow, Real.sq_sqrt hN.le]
  field_simp

/-- Together they carry hrss²: hrss is the root-sum-square amplitude. -/
theorem C51_hrss (Q f hrss ph e : ℝ) (hQ : 0 < Q) (hf : 0 < f) (h0 : 0 ≤ e) (h1 : e ≤ 1) :
    ∫ t, (sgPlus Q f hrss ph e t ^ 2 + sgCross Q f hrss ph e t ^ 2) = hrss ^ 2 := by
  obtain ⟨a1, a2⟩ := C51_plus Q f hrss ph e hQ hf
  obtain ⟨b1, b2⟩ := C51_cross Q f hrss ph e hQ hf
  rw [integral_add a1 b1, a2, b2, ← mul_add, (C52_ellipse e h0 h1).1, mul_one]

example : ∃ Q f e : ℝ, 0 < Q ∧ 0 < f ∧ 0 ≤ e ∧ e ≤ 1 := ⟨9, 150, 0.5, by norm_num⟩

end Ripple

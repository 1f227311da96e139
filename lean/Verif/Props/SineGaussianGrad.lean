/-
  Property C115: the sine-Gaussian burst is infinitely differentiable in all parameters together, except that the cross
  polarisation has no derivative in the eccentricity at linear polarisation.
-/
import Verif.Props.SineGaussian
import Mathlib.Analysis.SpecialFunctions.Sqrt
import Mathlib.Analysis.SpecialFunctions.ExpDeriv
import Mathlib.Analysis.SpecialFunctions.Trigonometric.Deriv
import Mathlib.Analysis.Calculus.Deriv.Pow

namespace Ripple
open scoped ContDiff Topology
open SineGaussian Set

/-- the arguments at which the samples of the burst are taken -/
lemma sg_sample (grid : List ℝ) (j : ℕ) (hj : j < grid.length) (tc Q f hrss ph e : ℝ) :
    (gen_SineGaussian_hphc (grid.map fun t => t - tc) Q f hrss ph e).1.getD j 0 = sgPlus Q f hrss ph e (grid.getD j 0 - tc) ∧
    (gen_SineGaussian_hphc (grid.map fun t => t - tc) Q f hrss ph e).2.getD j 0 = sgCross Q f hrss ph e (grid.getD j 0 - tc) := by
  rw [C53_pointwise]
  simp only [List.getD_eq_getElem?_getD, List.getElem?_map, List.getElem?_eq_getElem hj, Option.map_some, Option.getD_some]
  trivial

section
variable {Q f hrss ph e tc : ℝ}

lemma sg_envelope (hQ : 0 < Q) (t : ℝ) :
    ContDiffAt ℝ ∞ (fun p : Fin 6 → ℝ => Real.exp (-((2 * Real.pi * p 1 * (t - p 5)) ^ 2 / (2 * p 0 ^ 2))))
      ![Q, f, hrss, ph, e, tc] := by
  refine ContDiffAt.exp (ContDiffAt.neg (ContDiffAt.div (by fun_prop) (by fun_prop) ?_))
  simp only [Matrix.cons_val_zero]
  positivity

lemma sg_norm (hQ : 0 < Q) (hf : 0 < f) {c : (Fin 6 → ℝ) → ℝ} (hc : ContDiff ℝ ∞ c) (hb : ∀ p, |c p| ≤ 1) :
    ContDiffAt ℝ ∞ (fun p : Fin 6 → ℝ => Real.sqrt (sgN (p 0) (p 1) (c p))) ![Q, f, hrss, ph, e, tc] ∧
    Real.sqrt (sgN Q f (c ![Q, f, hrss, ph, e, tc])) ≠ 0 := by
  have h0 := sgN_pos hQ hf (hb ![Q, f, hrss, ph, e, tc])
  refine ⟨ContDiffAt.sqrt ?_ (by simpa using h0.ne'), (Real.sqrt_pos.2 h0).ne'⟩
  unfold sgN
  refine ContDiffAt.mul (ContDiffAt.div (by fun_prop) (by fun_prop) ?_) ?_
  · have := Real.pi_pos
    simp only [Matrix.cons_val_one, Matrix.cons_val_zero]
    positivity
  · have := hc.contDiffAt (x := ![Q, f, hrss, ph, e, tc])
    fun_prop

lemma sg_major (he : |e| ≤ 1) :
    ContDiffAt ℝ ∞ (fun p : Fin 6 → ℝ => (semi_major_minor_from_e (p 4)).1) ![Q, f, hrss, ph, e, tc] := by
  have h2 : 0 < 2 - e * e := by nlinarith [abs_le.1 he |>.1, abs_le.1 he |>.2, sq_abs e, abs_nonneg e]
  unfold semi_major_minor_from_e
  refine contDiffAt_const.div (ContDiffAt.sqrt (by fun_prop) ?_) ?_
  · exact h2.ne'
  · exact (Real.sqrt_pos.2 h2).ne'

lemma sg_minor (he : |e| < 1) :
    ContDiffAt ℝ ∞ (fun p : Fin 6 → ℝ => (semi_major_minor_from_e (p 4)).2) ![Q, f, hrss, ph, e, tc] := by
  have h1 : 0 < 1 - e * e := by nlinarith [abs_lt.1 he |>.1, abs_lt.1 he |>.2, sq_abs e, abs_nonneg e]
  refine ContDiffAt.mul (sg_major he.le) (ContDiffAt.sqrt (by fun_prop) ?_)
  exact h1.ne'

/-! ### C115 -/

/-- Plus polarisation: every sample is infinitely differentiable in quality factor, frequency, root-sum-square strain, phase,
    eccentricity and arrival time together, up to and including linear polarisation. -/
theorem C115_plus (hQ : 0 < Q) (hf : 0 < f) (he : |e| ≤ 1) (grid : List ℝ) (j : ℕ) (hj : j < grid.length) :
    ContDiffAt ℝ ∞ (fun p : Fin 6 → ℝ =>
        (gen_SineGaussian_hphc (grid.map fun t => t - p 5) (p 0) (p 1) (p 2) (p 3) (p 4)).1.getD j 0)
      ![Q, f, hrss, ph, e, tc] := by
  simp only [(sg_sample grid j hj _ _ _ _ _ _).1, sgPlus_eq]
  obtain ⟨n, n0⟩ := sg_norm (hrss := hrss) (ph := ph) (e := e) (tc := tc) hQ hf
    (c := fun p => Real.cos (2 * p 3)) (by fun_prop) (fun p => Real.abs_cos_le_one _)
  refine ((sg_envelope hQ _).mul ?_).mul (ContDiffAt.div (ContDiffAt.mul (by fun_prop) (sg_major he)) n n0)
  exact ContDiffAt.cos (by fun_prop)

/-- Cross polarisation: the same for every eccentricity below one. -/
theorem C115_cross (hQ : 0 < Q) (hf : 0 < f) (he : |e| < 1) (grid : List ℝ) (j : ℕ) (hj : j < grid.length) :
    ContDiffAt ℝ ∞ (fun p : Fin 6 → ℝ =>
        (gen_SineGaussian_hphc (grid.map fun t => t - p 5) (p 0) (p 1) (p 2) (p 3) (p 4)).2.getD j 0)
      ![Q, f, hrss, ph, e, tc] := by
  simp only [(sg_sample grid j hj _ _ _ _ _ _).2, sgCross_eq]
  obtain ⟨n, n0⟩ := sg_norm (hrss := hrss) (ph := ph) (e := e) (tc := tc) hQ hf
    (c := fun p => -Real.cos (2 * p 3)) (by fun_prop) (fun p => by rw [abs_neg]; exact Real.abs_cos_le_one _)
  refine ((sg_envelope hQ _).mul ?_).mul (ContDiffAt.div (ContDiffAt.mul (by fun_prop) (sg_minor he)) n n0)
  exact ContDiffAt.sin (by fun_prop)

/-- At linear polarisation the cross polarisation has no derivative in the eccentricity, not even from inside the allowed
    range: wherever the oscillation of a burst of non-zero strain is not at a node. -/
theorem C115_linear (hQ : 0 < Q) (hf : 0 < f) (hr : hrss ≠ 0) (grid : List ℝ) (j : ℕ) (hj : j < grid.length)
    (hn : Real.sin (2 * Real.pi * f * grid.getD j 0 - ph) ≠ 0) :
    ¬ DifferentiableWithinAt ℝ (fun e => (gen_SineGaussian_hphc grid Q f hrss ph e).2.getD j 0) (Icc 0 1) 1 := by
  intro hd
  have hs : ∀ e, (gen_SineGaussian_hphc grid Q f hrss ph e).2.getD j 0 = sgCross Q f hrss ph e (grid.getD j 0) := fun e => by
    have := (sg_sample grid j hj 0 Q f hrss ph e).2
    simpa using this
  have hN := Real.sqrt_pos.2 (sgN_pos hQ hf (c := -Real.cos (2 * ph)) (by rw [abs_neg]; exact Real.abs_cos_le_one _))
  obtain ⟨K, hK⟩ : ∃ K, K = Real.exp (-((2 * Real.pi * f * grid.getD j 0) ^ 2 / (2 * Q ^ 2))) *
    Real.sin (2 * Real.pi * f * grid.getD j 0 - ph) * (hrss / Real.sqrt (sgN Q f (-Real.cos (2 * ph)))) := ⟨_, rfl⟩
  have K0 : K ≠ 0 := by
    rw [hK]
    exact mul_ne_zero (mul_ne_zero (Real.exp_pos _).ne' hn) (div_ne_zero hr hN.ne')
  -- the square of the cross polarisation is a smooth function on the allowed range with non-zero slope
  have sq : ∀ e ∈ Icc (0 : ℝ) 1, ((gen_SineGaussian_hphc grid Q f hrss ph e).2.getD j 0) ^ 2 * (2 - e * e)
      = K ^ 2 * (1 - e * e) := by
    intro e ⟨h0, h1⟩
    have p1 : 0 ≤ 1 - e * e := by nlinarith
    have p2 : 0 < 2 - e * e := by nlinarith
    rw [hs, sgCross_eq, hK]
    simp only [semi_major_minor_from_e]
    generalize Real.exp _ = E
    generalize Real.sin _ = S
    generalize Real.sqrt (sgN _ _ _) = N
    have q1 := Real.sq_sqrt p1
    have q2 := Real.sq_sqrt p2.le
    have s2 := (Real.sqrt_pos.2 p2).ne'
    generalize Real.sqrt (1 - e * e) = A at *
    generalize Real.sqrt (2 - e * e) = B at *
    rw [← q1, ← q2]
    field_simp
  have z : (gen_SineGaussian_hphc grid Q f hrss ph 1).2.getD j 0 = 0 := by rw [hs]; exact C52_linear_cross _ _ _ _ _
  have D1 := ((hd.hasDerivWithinAt.pow 2).mul
    (((hasDerivAt_id (1 : ℝ)).mul (hasDerivAt_id 1)).const_sub 2).hasDerivWithinAt)
  have D2 := (((hasDerivAt_id (1 : ℝ)).mul (hasDerivAt_id 1)).const_sub 1).const_mul (K ^ 2) |>.hasDerivWithinAt (s := Icc 0 1)
  have D3 := D2.congr (f₁ := _) (fun e he => sq e he) (sq 1 (by constructor <;> norm_num))
  have U : UniqueDiffWithinAt ℝ (Icc (0 : ℝ) 1) 1 := uniqueDiffOn_Icc one_pos 1 (by constructor <;> norm_num)
  have := U.eq_deriv _ D1 D3
  simp only [Pi.mul_apply, Pi.pow_apply, id_eq, z] at this
  norm_num at this
  exact K0 this

end

example : ContDiffAt ℝ ∞ (fun p : Fin 6 → ℝ =>
    (gen_SineGaussian_hphc ([-1 / 2, 0, 1 / 2].map fun t => t - p 5) (p 0) (p 1) (p 2) (p 3) (p 4)).2.getD 1 0)
    ![9, 250, 1e-21, 0.3, 0.6, 0] :=
  C115_cross (by norm_num) (by norm_num) (by norm_num [abs_lt]) _ _ (by norm_num)

example : ¬ DifferentiableWithinAt ℝ (fun e => (gen_SineGaussian_hphc [0] 9 250 1e-21 1 e).2.getD 0 0) (Icc 0 1) 1 := by
  refine C115_linear (by norm_num) (by norm_num) (by norm_num) _ _ (by norm_num) ?_
  simp only [List.getD_cons_zero, mul_zero, zero_sub, Real.sin_neg, neg_ne_zero]
  exact (Real.sin_pos_of_pos_of_lt_pi one_pos (by linarith [Real.two_le_pi])).ne'

end Ripple

/-
  Properties C44 and C45: the Planck taper of the NRTidalv2 waveform and its hand-written derivative.
-/
import Verif.Model.NRTidalv2
import Mathlib.Analysis.SpecialFunctions.ExpDeriv
import Mathlib.Analysis.Calculus.Deriv.Inv
import Mathlib.Analysis.Calculus.Deriv.Add
import Mathlib.Analysis.Calculus.Deriv.Mul
import Mathlib.Topology.Algebra.Order.Field

namespace Ripple
open NRTidalv2 Filter Topology

/-- exponent of the taper -/
noncomputable def taperU (x y : ℝ) : ℝ := (1.2 * y - y) / (x - y) + (1.2 * y - y) / (x - 1.2 * y)

lemma taper_inside {x y : ℝ} (h1 : y < x) (h2 : x < 1.2 * y) :
    get_planck_taper x y = .fin (1 - 1 / (Real.exp (taperU x y) + 1)) := by
  have e1 : x - y ≠ 0 := by linarith
  have e2 : x - 1.2 * y ≠ 0 := by linarith
  have e3 : Real.exp (taperU x y) + 1 ≠ 0 := by positivity
  unfold get_planck_taper
  simp only
  rw [if_neg (by linarith), if_neg (by linarith), XR.div_fin _ e1, XR.div_fin _ e2, XR.add_fin]
  show XR.fin 1 - XR.fin 1 / (XR.fin (Real.exp (taperU x y)) + XR.fin 1) = _
  rw [XR.add_fin, XR.div_fin _ e3, XR.sub_fin]

/-- 1 before the start of the taper, including the starting point itself. -/
theorem C44_below (x y : ℝ) (hy : 0 < y) (h : x ≤ y) : get_planck_taper x y = .fin 1 := by
  rcases h.lt_or_eq with h | h
  · unfold get_planck_taper; simp only; rw [if_pos h]
  · subst h
    unfold get_planck_taper
    simp only
    rw [if_neg (lt_irrefl _), if_neg (by linarith), sub_self, XR.div_fin_zero_pos (by linarith),
      XR.div_fin _ (by linarith)]
    show XR.fin 1 - XR.fin 1 / XR.pinf = _
    simp

/-- 0 after the end of the taper. -/
theorem C44_above (x y : ℝ) (hy : 0 < y) (h : 1.2 * y < x) : get_planck_taper x y = .fin 0 := by
  unfold get_planck_taper; simp only; rw [if_neg (by linarith), if_pos h]

/-- Exactly at the end of the taper the formula divides by zero and returns 1 instead of 0. -/
theorem C44_end_point (y : ℝ) (hy : 0 < y) : get_planck_taper (1.2 * y) y = .fin 1 := by
  unfold get_planck_taper
  simp only
  rw [if_neg (by linarith), if_neg (lt_irrefl _), sub_self, XR.div_fin_zero_pos (by linarith),
    XR.div_fin _ (by linarith)]
  show XR.fin 1 - XR.fin 1 / XR.pinf = _
  simp

/-- Strictly between 0 and 1 inside. -/
theorem C44_inside (x y : ℝ) (h1 : y < x) (h2 : x < 1.2 * y) :
    ∃ r : ℝ, get_planck_taper x y = .fin r ∧ 0 < r ∧ r < 1 := by
  refine ⟨_, taper_inside h1 h2, ?_, ?_⟩
  · have : 0 < Real.exp (taperU x y) := Real.exp_pos _
    rw [sub_pos, div_lt_one (by positivity)]
    linarith
  · have : 0 < 1 / (Real.exp (taperU x y) + 1) := by positivity
    linarith

/-- Never nan or infinite, always in [0, 1]. -/
theorem C44_finite (x y : ℝ) (hy : 0 < y) : ∃ r : ℝ, get_planck_taper x y = .fin r ∧ 0 ≤ r ∧ r ≤ 1 := by
  rcases le_or_gt x y with h | h
  · exact ⟨1, C44_below x y hy h, by norm_num, le_rfl⟩
  · rcases lt_trichotomy x (1.2 * y) with h' | h' | h'
    · obtain ⟨r, a, b, c⟩ := C44_inside x y h h'
      exact ⟨r, a, b.le, c.le⟩
    · subst h'; exact ⟨1, C44_end_point y hy, by norm_num, le_rfl⟩
    · exact ⟨0, C44_above x y hy h', le_rfl, by norm_num⟩

lemma taperU_lt {x x' y : ℝ} (h1 : y < x) (h2 : x < x') (h3 : x' < 1.2 * y) : taperU x' y < taperU x y := by
  unfold taperU
  have hy : 0 < 1.2 * y - y := by linarith
  have a : (1.2 * y - y) / (x' - y) < (1.2 * y - y) / (x - y) :=
    div_lt_div_of_pos_left hy (by linarith) (by linarith)
  have b : (1.2 * y - y) / (x' - 1.2 * y) < (1.2 * y - y) / (x - 1.2 * y) := by
    rw [← neg_lt_neg_iff, ← div_neg, ← div_neg]
    exact div_lt_div_of_pos_left hy (by linarith) (by linarith)
  linarith

/-- Strictly decreasing inside. -/
theorem C44_decreasing (x x' y : ℝ) (h1 : y < x) (h2 : x < x') (h3 : x' < 1.2 * y) :
    ∃ r r' : ℝ, get_planck_taper x y = .fin r ∧ get_planck_taper x' y = .fin r' ∧ r' < r := by
  refine ⟨_, _, taper_inside h1 (h2.trans h3), taper_inside (h1.trans h2) h3, ?_⟩
  have h := Real.exp_lt_exp.2 (taperU_lt h1 h2 h3)
  have hp : 0 < Real.exp (taperU x' y) := Real.exp_pos _
  have : 1 / (Real.exp (taperU x y) + 1) < 1 / (Real.exp (taperU x' y) + 1) :=
    one_div_lt_one_div_of_lt (by positivity) (by linarith)
  linarith

/-- The taper joins 1 continuously at its start... -/
theorem C44_limit_start (y : ℝ) (hy : 0 < y) :
    Tendsto (fun x => finPart (get_planck_taper x y)) (𝓝[>] y) (𝓝 1) := by
  have hu : Tendsto (fun x => taperU x y) (𝓝[>] y) atTop := by
    unfold taperU
    have a : Tendsto (fun x : ℝ => (1.2 * y - y) / (x - y)) (𝓝[>] y) atTop := by
      have : Tendsto (fun x : ℝ => x - y) (𝓝[>] y) (𝓝[>] 0) := by
        refine tendsto_nhdsWithin_iff.2 ⟨?_, ?_⟩
        · have : Tendsto (fun x : ℝ => x - y) (𝓝 y) (𝓝 (y - y)) := (continuous_sub_right y).tendsto y
          rw [sub_self] at this
          exact this.mono_left nhdsWithin_le_nhds
        · filter_upwards [self_mem_nhdsWithin] with x hx
          exact sub_pos.2 (Set.mem_Ioi.1 hx)
      simp only [div_eq_mul_inv]
      exact Tendsto.const_mul_atTop (by linarith) (tendsto_inv_nhdsGT_zero.comp this)
    have b : Tendsto (fun x : ℝ => (1.2 * y - y) / (x - 1.2 * y)) (𝓝[>] y) (𝓝 ((1.2 * y - y) / (y - 1.2 * y))) := by
      refine Tendsto.mono_left ?_ nhdsWithin_le_nhds
      refine Tendsto.div tendsto_const_nhds ?_ (by linarith)
      exact (continuous_sub_right (1.2 * y)).tendsto y
    exact a.atTop_add b
  have h1 : Tendsto (fun x => 1 - 1 / (Real.exp (taperU x y) + 1)) (𝓝[>] y) (𝓝 (1 - 0)) := by
    refine Tendsto.sub tendsto_const_nhds ?_
    simp only [one_div]
    exact tendsto_inv_atTop_zero.comp (tendsto_atTop_add_const_right _ _ (Real.tendsto_exp_atTop.comp hu))
  rw [sub_zero] at h1
  refine h1.congr' ?_
  have : Set.Ioo y (1.2 * y) ∈ 𝓝[>] y := Ioo_mem_nhdsGT (by linarith)
  filter_upwards [this] with x hx
  rw [taper_inside hx.1 hx.2]; rfl

/-- ... and 0 at its end. -/
theorem C44_limit_end (y : ℝ) (hy : 0 < y) :
    Tendsto (fun x => finPart (get_planck_taper x y)) (𝓝[<] (1.2 * y)) (𝓝 0) := by
  have hu : Tendsto (fun x => taperU x y) (𝓝[<] (1.2 * y)) atBot := by
    unfold taperU
    have a : Tendsto (fun x : ℝ => (1.2 * y - y) / (x - 1.2 * y)) (𝓝[<] (1.2 * y)) atBot := by
      have : Tendsto (fun x : ℝ => x - 1.2 * y) (𝓝[<] (1.2 * y)) (𝓝[<] 0) := by
        refine tendsto_nhdsWithin_iff.2 ⟨?_, ?_⟩
        · have : Tendsto (fun x : ℝ => x - 1.2 * y) (𝓝 (1.2 * y)) (𝓝 (1.2 * y - 1.2 * y)) :=
            (continuous_sub_right (1.2 * y)).tendsto (1.2 * y)
          rw [sub_self] at this
          exact this.mono_left nhdsWithin_le_nhds
        · filter_upwards [self_mem_nhdsWithin] with x hx
          exact sub_neg.2 (Set.mem_Iio.1 hx)
      simp only [div_eq_mul_inv]
      exact Tendsto.const_mul_atBot (by linarith) (tendsto_inv_nhdsLT_zero.comp this)
    have b : Tendsto (fun x : ℝ => (1.2 * y - y) / (x - y)) (𝓝[<] (1.2 * y)) (𝓝 ((1.2 * y - y) / (1.2 * y - y))) := by
      refine Tendsto.mono_left ?_ nhdsWithin_le_nhds
      refine Tendsto.div tendsto_const_nhds ?_ (by linarith)
      exact (continuous_sub_right y).tendsto (1.2 * y)
    exact b.add_atBot a
  have h1 : Tendsto (fun x => 1 - 1 / (Real.exp (taperU x y) + 1)) (𝓝[<] (1.2 * y)) (𝓝 (1 - 1 / (0 + 1))) := by
    refine Tendsto.sub tendsto_const_nhds ?_
    refine Tendsto.div tendsto_const_nhds ?_ (by norm_num)
    exact (Real.tendsto_exp_atBot.comp hu).add_const 1
  have z : (1 : ℝ) - 1 / (0 + 1) = 0 := by norm_num
  rw [z] at h1
  refine h1.congr' ?_
  have : Set.Ioo y (1.2 * y) ∈ 𝓝[<] (1.2 * y) := Ioo_mem_nhdsLT (by linarith)
  filter_upwards [this] with x hx
  rw [taper_inside hx.1 hx.2]
  simp [finPart]

example : ∃ x x' y : ℝ, 0 < y ∧ y < x ∧ x < x' ∧ x' < 1.2 * y := ⟨1050, 1100, 1000, by norm_num⟩

/-! ### C45 derivative -/

/-- The hand-written derivative is the derivative with respect to the start of the taper, away from the two joints. -/
theorem C45_derivative (big x y : ℝ) (hy : 0 < y) (h1 : x ≠ y) (h2 : x ≠ 1.2 * y) :
    HasDerivAt (fun t => finPart (get_planck_taper x t)) (get_planck_taper_der big x y) y := by
  rcases lt_or_gt_of_ne h1 with h | h
  · have e : get_planck_taper_der big x y = 0 := by
      unfold get_planck_taper_der; simp only; rw [if_pos h]; rfl
    rw [e]
    refine (hasDerivAt_const y (1 : ℝ)).congr_of_eventuallyEq ?_
    filter_upwards [lt_mem_nhds h] with t ht
    unfold get_planck_taper; simp only; rw [if_pos ht]; rfl
  · rcases lt_or_gt_of_ne h2 with h' | h'
    · have e1 : x - y ≠ 0 := by linarith
      have e2 : x - 1.2 * y ≠ 0 := by linarith
      have hE : Real.exp (taperU x y) + 1 ≠ 0 := by positivity
      have e : get_planck_taper_der big x y = Real.exp (taperU x y) * ((-1 + 1.2) / (x - y) + (-1 + 1.2) / (x - 1.2 * y)
          + (-y + 1.2 * y) / (x - y) ^ 2 + 1.2 * (-y + 1.2 * y) / (x - 1.2 * y) ^ 2)
          / ((Real.exp (taperU x y) + 1) * (Real.exp (taperU x y) + 1)) := by
        unfold get_planck_taper_der
        simp only
        rw [if_neg (by linarith), if_neg (by linarith), XR.div_fin _ e1, XR.div_fin _ e2, XR.div_fin _ e1,
          XR.div_fin _ e2, XR.div_fin _ (pow_ne_zero 2 e1), XR.div_fin _ (pow_ne_zero 2 e2), XR.add_fin, XR.add_fin,
          XR.add_fin, XR.add_fin]
        show nan_to_num big (XR.fin (Real.exp (taperU x y)) * _ /
          ((XR.fin (Real.exp (taperU x y)) + XR.fin 1) * (XR.fin (Real.exp (taperU x y)) + XR.fin 1))) = _
        rw [XR.add_fin, XR.mul_fin, XR.mul_fin, XR.div_fin _ (mul_ne_zero hE hE)]
        rfl
      have hu : HasDerivAt (fun t => taperU x t) ((-1 + 1.2) / (x - y) + (-1 + 1.2) / (x - 1.2 * y)
          + (-y + 1.2 * y) / (x - y) ^ 2 + 1.2 * (-y + 1.2 * y) / (x - 1.2 * y) ^ 2) y := by
        unfold taperU
        have d1 : HasDerivAt (fun t : ℝ => 1.2 * t - t) (1.2 * 1 - 1) y :=
          ((hasDerivAt_id y).const_mul 1.2).sub (hasDerivAt_id y)
        have d2 : HasDerivAt (fun t : ℝ => x - t) (-1) y := (hasDerivAt_id y).const_sub x
        have d3 : HasDerivAt (fun t : ℝ => x - 1.2 * t) (-(1.2 * 1)) y := ((hasDerivAt_id y).const_mul 1.2).const_sub x
        have := (d1.div d2 e1).add (d1.div d3 e2)
        refine HasDerivAt.congr_deriv this ?_
        field_simp
        ring
      have hd : HasDerivAt (fun t => 1 - 1 / (Real.exp (taperU x t) + 1)) (get_planck_taper_der big x y) y := by
        rw [e]
        have := ((hu.exp.add_const 1).inv hE).const_sub 1
        simp only [one_div]
        refine HasDerivAt.congr_deriv this ?_
        field_simp
      refine hd.congr_of_eventuallyEq ?_
      have m1 : ∀ᶠ t in 𝓝 y, t < x := gt_mem_nhds h
      have m2 : ∀ᶠ t in 𝓝 y, x < 1.2 * t := by
        have : ∀ᶠ t in 𝓝 y, x / 1.2 < t := lt_mem_nhds (by rw [div_lt_iff₀ (by norm_num)]; linarith)
        filter_upwards [this] with t ht
        rw [div_lt_iff₀ (by norm_num)] at ht; linarith
      filter_upwards [m1, m2] with t ht ht'
      rw [taper_inside ht ht']; rfl
    · have e : get_planck_taper_der big x y = 0 := by
        unfold get_planck_taper_der; simp only; rw [if_neg (by linarith), if_pos h']; rfl
      rw [e]
      refine (hasDerivAt_const y (0 : ℝ)).congr_of_eventuallyEq ?_
      have m1 : ∀ᶠ t in 𝓝 y, 1.2 * t < x := by
        have : ∀ᶠ t in 𝓝 y, t < x / 1.2 := gt_mem_nhds (by rw [lt_div_iff₀ (by norm_num)]; linarith)
        filter_upwards [this] with t ht
        rw [lt_div_iff₀ (by norm_num)] at ht; linarith
      have m2 : ∀ᶠ t in 𝓝 y, 0 < t := lt_mem_nhds hy
      filter_upwards [m1, m2] with t ht ht'
      rw [C44_above x t ht' ht]; rfl

/-- The registered rule propagates a change of the start of the taper correctly... -/
theorem C45_rule_y (big x y ydot : ℝ) (hy : 0 < y) (h1 : x ≠ y) (h2 : x ≠ 1.2 * y) :
    planck_taper_jvp big x y 0 ydot = deriv (fun t => finPart (get_planck_taper x t)) y * ydot := by
  rw [(C45_derivative big x y hy h1 h2).deriv]; simp [planck_taper_jvp]

/-- ... but ignores the frequency argument: inside the taper the true derivative with respect to frequency is strictly
    negative while the rule returns 0. -/
theorem C45_rule_x (big x y : ℝ) (h1 : y < x) (h2 : x < 1.2 * y) :
    ∃ d < 0, HasDerivAt (fun t => finPart (get_planck_taper t y)) d x ∧ planck_taper_jvp big x y 1 0 = 0 := by
  have e1 : x - y ≠ 0 := by linarith
  have e2 : x - 1.2 * y ≠ 0 := by linarith
  have hE : Real.exp (taperU x y) + 1 ≠ 0 := by positivity
  have hy : 0 < y := by linarith
  have hu : HasDerivAt (fun t => taperU t y) (-((1.2 * y - y) / (x - y) ^ 2 + (1.2 * y - y) / (x - 1.2 * y) ^ 2)) x := by
    unfold taperU
    have d2 : HasDerivAt (fun t : ℝ => t - y) 1 x := (hasDerivAt_id x).sub_const y
    have d3 : HasDerivAt (fun t : ℝ => t - 1.2 * y) 1 x := (hasDerivAt_id x).sub_const (1.2 * y)
    have := ((hasDerivAt_const x (1.2 * y - y)).div d2 e1).add ((hasDerivAt_const x (1.2 * y - y)).div d3 e2)
    refine HasDerivAt.congr_deriv this ?_
    ring
  have hd := ((hu.exp.add_const 1).inv hE).const_sub 1
  refine ⟨_, ?_, hd.congr_of_eventuallyEq ?_, by simp [planck_taper_jvp]⟩
  · have p1 : 0 < (1.2 * y - y) / (x - y) ^ 2 := div_pos (by linarith) (by positivity)
    have p2 : 0 < (1.2 * y - y) / (x - 1.2 * y) ^ 2 := div_pos (by linarith) (by positivity)
    have p3 : 0 < Real.exp (taperU x y) := Real.exp_pos _
    rw [neg_div, neg_neg, mul_neg, neg_div]
    exact neg_neg_of_pos (by positivity)
  · filter_upwards [lt_mem_nhds h1, gt_mem_nhds h2] with t ht ht'
    rw [taper_inside ht ht']
    simp [finPart]

example : ∃ x y : ℝ, 0 < y ∧ y < x ∧ x < 1.2 * y ∧ x ≠ y ∧ x ≠ 1.2 * y := ⟨1050, 1000, by norm_num⟩

end Ripple

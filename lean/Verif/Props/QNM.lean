/-
  Property theorems C93 (quasi-normal-mode tables) and C94 (remnant of an aligned-spin binary in PhenomD).
-/
import Verif.Proofs.QNMSpline
import Verif.Proofs.Remnant
import Verif.Props.PhenomDPhys

namespace Ripple
open PhenomD QNMData Set

/-! ### C93: the tables built at import time -/

attribute [local irreducible] grid

lemma table_eps (eps : ℝ) : (qnmTable eps).eps = eps := by simp only [qnmTable]
lemma table_a (eps : ℝ) : (qnmTable eps).a = grid := by simp only [qnmTable]
lemma table_RD (eps : ℝ) : (qnmTable eps).fRD = grid.map (Scipy.CubicSpline knots valRD) := by simp only [qnmTable]
lemma table_damp (eps : ℝ) : (qnmTable eps).fdamp = grid.map (Scipy.CubicSpline knots valdamp) := by simp only [qnmTable]

/-- The tables are the not-a-knot cubic splines through the 1003 published points, sampled at 500000 equally spaced spins
    from -1 to 1. -/
theorem C93_tables (eps : ℝ) :
    ∃ R D : ℝ → ℝ, NotAKnotSpline knots valRD R ∧ NotAKnotSpline knots valdamp D ∧
      knots.length = 1003 ∧ valRD.length = 1003 ∧ valdamp.length = 1003 ∧
      (qnmTable eps).a.length = 500000 ∧
      (∀ k : ℕ, k < 500000 → (qnmTable eps).a.getD k 0 = -1 + 2 * k / 499999) ∧
      (qnmTable eps).fRD = (qnmTable eps).a.map R ∧ (qnmTable eps).fdamp = (qnmTable eps).a.map D := by
  refine ⟨_, _, notAKnot valRD, notAKnot valdamp, knots_length, ?_, ?_, ?_, fun k hk => ?_, ?_, ?_⟩
  · unfold valRD; rw [List.length_map]; exact fRD_length
  · unfold valdamp; rw [List.length_map]; exact fdamp_length
  · rw [table_a]; exact grid_length
  · rw [table_a]; exact grid_getD k hk
  · rw [table_a, table_RD]
  · rw [table_a, table_damp]

/-- Looking a spin up in the tables gives the spline to 4e-5, in particular the published value at each published spin. -/
theorem C93_lookup {eps : ℝ} (he : 0 ≤ eps) (he' : eps < 4e-6) :
    ∃ R D : ℝ → ℝ, NotAKnotSpline knots valRD R ∧ NotAKnotSpline knots valdamp D ∧
      ∀ v, -1 ≤ v → v ≤ 1 →
        |Jnp.interp eps v (qnmTable eps).a (qnmTable eps).fRD - R v| ≤ 4e-5 ∧
        |Jnp.interp eps v (qnmTable eps).a (qnmTable eps).fdamp - D v| ≤ 4e-5 := by
  refine ⟨_, _, notAKnot valRD, notAKnot valdamp, fun v h1 h2 => ?_⟩
  rw [table_a, table_RD, table_damp]
  exact ⟨lookup_close he he' (fun a b c => splineRD_lip a b c) h1 h2,
    lookup_close he he' (fun a b c => splinedamp_lip a b c) h1 h2⟩

theorem C93_published {eps : ℝ} (he : 0 ≤ eps) (he' : eps < 4e-6) (k : ℕ) (hk : k < 1003) :
    |Jnp.interp eps (knots.getD k 0) (qnmTable eps).a (qnmTable eps).fRD - valRD.getD k 0| ≤ 4e-5 ∧
    |Jnp.interp eps (knots.getD k 0) (qnmTable eps).a (qnmTable eps).fdamp - valdamp.getD k 0| ≤ 4e-5 := by
  obtain ⟨R, D, hR, hD, h⟩ := C93_lookup he he'
  have h1 := good.le le_rfl (Nat.zero_le k) (by rw [knots_length]; exact hk)
  have h2 := good.le le_rfl (show k ≤ 1002 by omega) (by rw [knots_length]; norm_num)
  rw [knot_first] at h1
  rw [knot_last] at h2
  rw [← hR.through k (by rw [knots_length]; exact hk), ← hD.through k (by rw [knots_length]; exact hk)]
  exact h _ h1 h2

/-- The ringdown frequency increases strictly with the spin of the remnant. -/
theorem C93_increasing {eps : ℝ} (he : 0 ≤ eps) (he' : eps < 4e-6) :
    StrictMonoOn (fun v => Jnp.interp eps v (qnmTable eps).a (qnmTable eps).fRD) (Icc (-1) 1) := by
  simp only [table_a, table_RD]
  exact fun _ hv _ hw hvw => lookup_mono he he' (fun a b c => (splineRD_mono a b c).1) hv.1 hvw hw.2

/-- Values of the tables. -/
theorem C93_range (eps : ℝ) :
    (∀ y ∈ (qnmTable eps).fRD, 0.0464014 ≤ y ∧ y ≤ 0.1579619) ∧
    (∀ y ∈ (qnmTable eps).fdamp, 0.0002908 ≤ y ∧ y ≤ 0.0143) := by
  rw [table_RD, table_damp]
  constructor
  · intro y hy
    obtain ⟨v, hv, rfl⟩ := List.mem_map.1 hy
    exact splineRD_range (grid_mem hv).1 (grid_mem hv).2
  · intro y hy
    obtain ⟨v, hv, rfl⟩ := List.mem_map.1 hy
    exact splinedamp_range (grid_mem hv).1 (grid_mem hv).2

/-- The assumption `QNM.Shipped` made about the tables elsewhere holds of the actual ones. -/
theorem C93_shipped {eps : ℝ} (he : 0 ≤ eps) (he' : eps < 4e-6) : (qnmTable eps).Shipped := qnmTable_shipped he he'

/-- witness: the guard of `jnp.interp` in single precision -/
example : (qnmTable 1.2e-7).Shipped := C93_shipped (by norm_num) (by norm_num)

/-- so C74 holds of the waveform as shipped -/
example (theta : Theta) (h : theta.Physical) :
    let tf := get_transition_frequencies (qnmTable 1.2e-7) theta (get_coeffs theta 5) (get_coeffs theta 6)
    0 < tf.f3 ∧ tf.f3 < tf.f4 ∧ tf.f4 ≤ tf.f_RD ∧ tf.f_RD < 0.2 / ((theta.m1 + theta.m2) * gt) :=
  let h := C74_amplitude_regions_ordered _ (C93_shipped (by norm_num) (by norm_num)) theta h
  ⟨h.1, h.2.1, h.2.2.1, h.2.2.2.1⟩

/-! ### C94: remnant of an aligned-spin binary -/

/-- symmetric mass ratio and total spin (in units of the squared total mass) -/
noncomputable def etaOf (theta : Theta) : ℝ := theta.m1 * theta.m2 / (theta.m1 + theta.m2) ^ 2
noncomputable def spinOf (theta : Theta) : ℝ :=
  (theta.chi1 * theta.m1 ^ 2 + theta.chi2 * theta.m2 ^ 2) / (theta.m1 + theta.m2) ^ 2

lemma etaOf_range {theta : Theta} (h : theta.Physical) : 0 < etaOf theta ∧ etaOf theta ≤ 1 / 4 := by
  have h1 := h.m1_pos
  have h2 := h.m2_pos
  unfold etaOf
  refine ⟨by positivity, ?_⟩
  rw [div_le_iff₀ (by positivity)]
  nlinarith [sq_nonneg (theta.m1 - theta.m2)]

lemma spinOf_range {theta : Theta} (h : theta.Physical) : |spinOf theta| ≤ 1 - 2 * etaOf theta := by
  have h1 := h.m1_pos
  have h2 := h.m2_pos
  obtain ⟨a, b⟩ := abs_le.1 h.chi1_le
  obtain ⟨c, d⟩ := abs_le.1 h.chi2_le
  have hM : 0 < (theta.m1 + theta.m2) ^ 2 := by positivity
  have e : 1 - 2 * etaOf theta = (theta.m1 ^ 2 + theta.m2 ^ 2) / (theta.m1 + theta.m2) ^ 2 := by
    unfold etaOf; field_simp; ring
  rw [e, spinOf, abs_div, abs_of_pos hM]
  refine div_le_div_of_nonneg_right ?_ hM.le
  rw [abs_le]
  constructor <;> nlinarith [sq_nonneg theta.m1, sq_nonneg theta.m2]

/-- The remnant spin lies strictly between -1 and 1. -/
theorem C94_spin_range (theta : Theta) (h : theta.Physical) :
    -1 < FinalSpin0815_s (etaOf theta) (spinOf theta) ∧ FinalSpin0815_s (etaOf theta) (spinOf theta) < 1 :=
  finalSpin_range (etaOf_range h).1 (etaOf_range h).2 (spinOf_range h)

/-- It increases strictly with the total spin, hence with the spin of either body. -/
theorem C94_spin_increasing (a b : Theta) (ha : a.Physical) (hb : b.Physical) (h1 : a.m1 = b.m1) (h2 : a.m2 = b.m2)
    (hc1 : a.chi1 ≤ b.chi1) (hc2 : a.chi2 ≤ b.chi2) (hne : a ≠ b) :
    FinalSpin0815_s (etaOf a) (spinOf a) < FinalSpin0815_s (etaOf b) (spinOf b) := by
  have e : etaOf a = etaOf b := by unfold etaOf; rw [h1, h2]
  have m1 := hb.m1_pos
  have m2 := hb.m2_pos
  have hS : spinOf a < spinOf b := by
    unfold spinOf
    rw [h1, h2]
    refine div_lt_div_of_pos_right ?_ (by positivity)
    rcases lt_or_eq_of_le hc1 with h | h
    · nlinarith [mul_lt_mul_of_pos_right h (pow_pos m1 2), mul_le_mul_of_nonneg_right hc2 (pow_pos m2 2).le]
    · rcases lt_or_eq_of_le hc2 with h' | h'
      · nlinarith [mul_lt_mul_of_pos_right h' (pow_pos m2 2), mul_le_mul_of_nonneg_right hc1 (pow_pos m1 2).le]
      · exact absurd (Theta.ext h1 h2 h h') hne
  have hr := etaOf_range hb
  rw [finalSpin_eq (e ▸ hr.1.ne'), finalSpin_eq hr.1.ne', e]
  exact spin_strictMono hr.1.le hr.2 (e ▸ spinOf_range ha) (spinOf_range hb) hS

/-- Ringdown and damping frequency of PhenomD with the shipped tables: the published ones (interpolated) at the remnant spin,
    which the lookup never clamps, for a remnant of mass `(1 - Erad) M`. -/
theorem C94_ringdown {eps : ℝ} (he : 0 ≤ eps) (he' : eps < 4e-6) :
    ∃ R D : ℝ → ℝ, NotAKnotSpline knots valRD R ∧ NotAKnotSpline knots valdamp D ∧ ∀ theta : Theta, theta.Physical →
      let a := FinalSpin0815_s (etaOf theta) (spinOf theta)
      let Mf := (1 - EradRational0815 (etaOf theta) theta.chi1 theta.chi2) * ((theta.m1 + theta.m2) * gt)
      0 < Mf ∧ |(get_fRD_fdamp (qnmTable eps) theta.m1 theta.m2 theta.chi1 theta.chi2).1 * Mf - R a| ≤ 4e-5 ∧
        |(get_fRD_fdamp (qnmTable eps) theta.m1 theta.m2 theta.chi1 theta.chi2).2 * Mf - D a| ≤ 4e-5 := by
  obtain ⟨R, D, hR, hD, h⟩ := C93_lookup he he'
  refine ⟨R, D, hR, hD, fun theta hp => ?_⟩
  intro a Mf
  have m1 := hp.m1_pos
  have m2 := hp.m2_pos
  have hg := gt_pos
  have er := etaOf_range hp
  have hE := Erad_lt (etaOf theta) theta.chi1 theta.chi2 er.1 er.2 hp.chi1_le hp.chi2_le
  have hE' : 0 < 1 - EradRational0815 (etaOf theta) theta.chi1 theta.chi2 := by linarith
  have hM : 0 < (theta.m1 + theta.m2) * gt := by positivity
  have ee : theta.m1 * gt * (theta.m2 * gt) / (theta.m1 * gt + theta.m2 * gt) ^ 2 = etaOf theta := by
    unfold etaOf; field_simp
  have es : (theta.chi1 * (theta.m1 * gt) ^ 2 + theta.chi2 * (theta.m2 * gt) ^ 2) / (theta.m1 * gt + theta.m2 * gt) ^ 2 =
      spinOf theta := by
    unfold spinOf; field_simp
  have eM : theta.m1 * gt + theta.m2 * gt = (theta.m1 + theta.m2) * gt := by ring
  have hl := h a (C94_spin_range theta hp).1.le (C94_spin_range theta hp).2.le
  refine ⟨mul_pos hE' hM, ?_, ?_⟩
  · rw [show (get_fRD_fdamp (qnmTable eps) theta.m1 theta.m2 theta.chi1 theta.chi2).1 * Mf =
      Jnp.interp eps a (qnmTable eps).a (qnmTable eps).fRD from ?_]
    · exact hl.1
    · unfold get_fRD_fdamp
      simp only [ee, es, table_eps]
      rw [eM]
      show Jnp.interp eps a (qnmTable eps).a (qnmTable eps).fRD / _ / _ * (_ * _) = _
      field_simp
  · rw [show (get_fRD_fdamp (qnmTable eps) theta.m1 theta.m2 theta.chi1 theta.chi2).2 * Mf =
      Jnp.interp eps a (qnmTable eps).a (qnmTable eps).fdamp from ?_]
    · exact hl.2
    · unfold get_fRD_fdamp
      simp only [ee, es, table_eps]
      rw [eM]
      show Jnp.interp eps a (qnmTable eps).a (qnmTable eps).fdamp / _ / _ * (_ * _) = _
      field_simp

/-- witness: two physical binaries differing in one spin -/
example : (⟨36, 29, 1, -1⟩ : Theta).Physical ∧ (⟨36, 29, 1, 1⟩ : Theta).Physical ∧
    (⟨36, 29, 1, -1⟩ : Theta) ≠ ⟨36, 29, 1, 1⟩ :=
  ⟨⟨by norm_num, by norm_num, by norm_num, by norm_num⟩, ⟨by norm_num, by norm_num, by norm_num, by norm_num⟩,
    fun h => by have := congrArg Theta.chi2 h; norm_num at this⟩

end Ripple

/-
  Properties C43, C47, C48, C78, C79, C80: the ingredients of the NRTidalv2 waveform.
-/
import Verif.Proofs.NRTidalv2
import Verif.Proofs.TaylorF2
import Verif.Props.Conversions
import Mathlib.Analysis.Real.Pi.Bounds
import Mathlib.Analysis.SpecialFunctions.Log.Deriv
import Mathlib.Analysis.SpecialFunctions.Pow.Continuity
import Mathlib.Analysis.Complex.Exponential

namespace Ripple
open NRTidalv2 Tidal TaylorF2 Filter Topology

/-! ### C43 -/

/-- kappa is 3/16 of the physical combination of the deformabilities... -/
theorem C43_kappa (t : ThetaT) (h1 : 0 < t.m1) (h2 : 0 < t.m2) :
    get_kappa t = 3 / 16 * Spec.lambdaTilde t.m1 t.lambda1 t.m2 t.lambda2 := by
  unfold get_kappa Spec.lambdaTilde
  simp only
  field_simp

/-- ... and hence of the first component of `lambdas_to_lambda_tildes`. -/
theorem C43_kappa_lambda_tilde (t : ThetaT) (h2 : 0 < t.m2) (h12 : t.m2 ≤ t.m1) :
    get_kappa t = 3 / 16 * (lambdas_to_lambda_tildes t.lambda1 t.lambda2 t.m1 t.m2).1 := by
  rw [C43_kappa t (lt_of_lt_of_le h2 h12) h2, C04_lambda_tilde_physical _ _ _ _ h2 h12]

/-- Exchanging the two bodies does not change kappa. -/
theorem C43_exchange (m1 m2 c1 c2 l1 l2 : ℝ) :
    get_kappa ⟨m1, m2, c1, c2, l1, l2⟩ = get_kappa ⟨m2, m1, c2, c1, l2, l1⟩ := by
  unfold get_kappa
  simp only
  rw [add_comm m2 m1]
  ring

/-- numerator and denominator of the Padé approximant in s = √x -/
noncomputable def padeN (s : ℝ) : ℝ := 1 + -12.615214237993088 * s ^ 2 + 19.0537346970349 * s ^ 3
  + -21.166863146081035 * s ^ 4 + 90.55082156324926 * s ^ 5 + -60.25357801943598 * s ^ 6
noncomputable def padeD (s : ℝ) : ℝ := 1 + -15.111207827736678 * s ^ 2 + 22.195327350624694 * s ^ 3
  + 8.064109635305156 * s ^ 4

lemma padeD_bound {s : ℝ} (hs : 0 ≤ s) : 1 / 5 ≤ padeD s := by
  unfold padeD
  nlinarith [sq_nonneg (s - 0.3829), mul_nonneg hs (sq_nonneg (s - 0.3829)),
    mul_nonneg (mul_nonneg hs hs) (sq_nonneg (s - 0.3829))]

lemma padeN_pos {s : ℝ} (hs : 0 ≤ s) (h1 : s ≤ 1) : 0 < padeN s := by
  unfold padeN
  have h1' : 0 ≤ 1 - s := by linarith
  have q := sq_nonneg (s - 0.37)
  have b : ∀ i j : ℕ, 0 ≤ s ^ i * (1 - s) ^ j := fun i j => by positivity
  linarith [mul_nonneg q (b 0 4), mul_nonneg q (b 1 3), mul_nonneg q (b 2 2), mul_nonneg q (b 3 1), mul_nonneg q (b 4 0),
    b 0 6, b 1 5, b 2 4, b 3 3, b 4 2, b 5 1, b 6 0]

lemma tidal_phase_sq (t : ThetaT) (h1 : 0 < t.m1) (h2 : 0 < t.m2) (k : ℝ) {s : ℝ} (hs : 0 ≤ s) :
    get_tidal_phase (s ^ 2) t k =
      -(39 / 16) * k / Spec.eta t.m1 t.m2 * s ^ 5 * (padeN s / padeD s) := by
  have e3 : (s ^ 2 : ℝ) ^ ((3 : ℝ) / 2) = s ^ 3 := by
    rw [← Real.rpow_natCast s 2, ← Real.rpow_mul hs, ← Real.rpow_natCast s 3]; norm_num
  have e5 : (s ^ 2 : ℝ) ^ ((5 : ℝ) / 2) = s ^ 5 := by
    rw [← Real.rpow_natCast s 2, ← Real.rpow_mul hs, ← Real.rpow_natCast s 5]; norm_num
  have hg := gt_pos
  have eX : t.m1 * gt / (t.m1 * gt + t.m2 * gt) * (t.m2 * gt / (t.m1 * gt + t.m2 * gt)) = Spec.eta t.m1 t.m2 := by
    unfold Spec.eta; field_simp
  unfold get_tidal_phase padeN padeD
  simp only [e3, e5, eX]
  have : (2.4375 : ℝ) = 39 / 16 := by norm_num
  rw [this, ← pow_mul, ← pow_mul]
  ring

/-- At low frequency the tidal phases of the two models agree: the ratio of the NRTidalv2 tidal phase to the leading
    tidal term of the TaylorF2 series (its `v^10` coefficient times v^10/v^5) tends to 1. -/
theorem C43_leading (t : ThetaT) (h1 : 0 < t.m1) (h2 : 0 < t.m2) (hl : get_kappa t ≠ 0) :
    Tendsto (fun v : ℝ => get_tidal_phase (v ^ 2) t (get_kappa t) /
      ((get_PNPhasing_F2 t.m1 t.m2 t.chi1 t.chi2 t.lambda1 t.lambda2).p10 * v ^ 10 / v ^ 5)) (𝓝[>] 0) (𝓝 1) := by
  have hc : ContinuousAt (fun s : ℝ => padeN s / padeD s) 0 := by
    refine ContinuousAt.div (by unfold padeN; fun_prop) (by unfold padeD; fun_prop) (by simp [padeD])
  have hlim : Tendsto (fun s : ℝ => padeN s / padeD s) (𝓝[>] 0) (𝓝 1) := by
    have := hc.tendsto
    simp only [padeN, padeD] at this ⊢
    norm_num at this
    norm_num
    exact this.mono_left nhdsWithin_le_nhds
  refine hlim.congr' ?_
  filter_upwards [self_mem_nhdsWithin] with v hv
  have hv : 0 < v := hv
  have he : 0 < Spec.eta t.m1 t.m2 := by unfold Spec.eta; positivity
  rw [tidal_phase_sq t h1 h2 _ hv.le, p10_eq h1 h2, Spec.psi10]
  have hk := C43_kappa t h1 h2
  have hL : Spec.lambdaTilde t.m1 t.lambda1 t.m2 t.lambda2 ≠ 0 := by
    intro h; apply hl; rw [hk, h, mul_zero]
  rw [hk]
  have hD : padeD v ≠ 0 := by have := padeD_bound hv.le; linarith
  field_simp
  ring

example : ∃ t : ThetaT, 0 < t.m2 ∧ t.m2 ≤ t.m1 ∧ get_kappa t ≠ 0 :=
  ⟨⟨1.4, 1.4, 0, 0, 400, 400⟩, by norm_num, le_rfl, by unfold get_kappa; norm_num⟩

/-! ### C78 no pole -/

/-- The tidal phase is a continuous function of frequency: the rational fit has no pole at any x > 0. -/
theorem C78_continuous (t : ThetaT) (h1 : 0 < t.m1) (h2 : 0 < t.m2) (k : ℝ) :
    ContinuousOn (fun x => get_tidal_phase x t k) (Set.Ici 0) := by
  have e : ∀ x ∈ Set.Ici (0 : ℝ), get_tidal_phase x t k =
      -(39 / 16) * k / Spec.eta t.m1 t.m2 * Real.sqrt x ^ 5 * (padeN (Real.sqrt x) / padeD (Real.sqrt x)) := by
    intro x hx
    rw [← tidal_phase_sq t h1 h2 k (Real.sqrt_nonneg x), Real.sq_sqrt hx]
  refine ContinuousOn.congr ?_ e
  refine Continuous.continuousOn ?_
  have hd : ∀ x : ℝ, padeD (Real.sqrt x) ≠ 0 := fun x => by have := padeD_bound (Real.sqrt_nonneg x); linarith
  refine Continuous.mul (by fun_prop) (Continuous.div ?_ ?_ hd)
  · unfold padeN; fun_prop
  · unfold padeD; fun_prop

/-- and so is the tidal amplitude. -/
theorem C78_amplitude_continuous (t : ThetaT) (k D : ℝ) :
    ContinuousOn (fun x => get_tidal_amplitude x t k D) (Set.Ici 0) := by
  unfold get_tidal_amplitude
  simp only
  refine ContinuousOn.mul (ContinuousOn.mul (ContinuousOn.mul continuousOn_const ?_) (ContinuousOn.div ?_ ?_ ?_))
    continuousOn_const
  · exact (Real.continuous_rpow_const (by norm_num)).continuousOn
  · exact ((continuous_const.add (continuous_const.mul continuous_id)).add
      (continuous_const.mul (Real.continuous_rpow_const (by norm_num)))).continuousOn
  · fun_prop
  · intro x _; positivity

/-- The size of the phase correction is bounded by a fixed multiple of its leading term: nothing is amplified by a small
    denominator. -/
theorem C78_bounded (t : ThetaT) (h1 : 0 < t.m1) (h2 : 0 < t.m2) (k : ℝ) {x : ℝ} (hx : 0 ≤ x) (hx1 : x ≤ 1) :
    |get_tidal_phase x t k| ≤ 555 * |39 / 16 * k / Spec.eta t.m1 t.m2 * x ^ ((5 : ℝ) / 2)| := by
  have hs := Real.sqrt_nonneg x
  have hs1 : Real.sqrt x ≤ 1 := by rw [Real.sqrt_le_one]; exact hx1
  have e5 : x ^ ((5 : ℝ) / 2) = Real.sqrt x ^ 5 := by
    rw [Real.sqrt_eq_rpow, ← Real.rpow_natCast, ← Real.rpow_mul hx]; norm_num
  have key : get_tidal_phase x t k =
      -(39 / 16) * k / Spec.eta t.m1 t.m2 * Real.sqrt x ^ 5 * (padeN (Real.sqrt x) / padeD (Real.sqrt x)) := by
    rw [← tidal_phase_sq t h1 h2 k hs, Real.sq_sqrt hx]
  rw [key, e5]
  set s := Real.sqrt x
  have hN := padeN_pos hs hs1
  have hD := padeD_bound hs
  have hN' : padeN s ≤ 111 := by
    unfold padeN
    have := pow_le_one₀ (n := 3) hs hs1
    have := pow_le_one₀ (n := 5) hs hs1
    have : 0 ≤ s ^ 2 := by positivity
    have : 0 ≤ s ^ 4 := by positivity
    have : 0 ≤ s ^ 6 := by positivity
    linarith
  have hr : padeN s / padeD s ≤ 555 := by
    rw [div_le_iff₀ (by linarith)]; linarith
  rw [abs_mul, abs_of_pos (div_pos hN (by linarith)), mul_comm]
  rw [show -(39 / 16) * k / Spec.eta t.m1 t.m2 * s ^ 5 = -(39 / 16 * k / Spec.eta t.m1 t.m2 * s ^ 5) by ring, abs_neg]
  exact mul_le_mul_of_nonneg_right hr (abs_nonneg _)

/-- Up to v = 1 (far above the cutoff) the phase correction has the sign of -kappa... -/
theorem C78_sign (t : ThetaT) (h1 : 0 < t.m1) (h2 : 0 < t.m2) {k x : ℝ} (hk : 0 < k) (hx : 0 < x) (hx1 : x ≤ 1) :
    get_tidal_phase x t k < 0 := by
  have hs := Real.sqrt_pos.2 hx
  have hs1 : Real.sqrt x ≤ 1 := by rw [Real.sqrt_le_one]; exact hx1
  have he : 0 < Spec.eta t.m1 t.m2 := by unfold Spec.eta; positivity
  have key := tidal_phase_sq t h1 h2 k hs.le
  rw [Real.sq_sqrt hx.le] at key
  rw [key]
  have hD := padeD_bound hs.le
  have hr : 0 < padeN (Real.sqrt x) / padeD (Real.sqrt x) := div_pos (padeN_pos hs.le hs1) (by linarith)
  have : 0 < 39 / 16 * k / Spec.eta t.m1 t.m2 * Real.sqrt x ^ 5 * (padeN (Real.sqrt x) / padeD (Real.sqrt x)) := by
    positivity
  have e : -(39 / 16) * k / Spec.eta t.m1 t.m2 * Real.sqrt x ^ 5 * (padeN (Real.sqrt x) / padeD (Real.sqrt x)) =
      -(39 / 16 * k / Spec.eta t.m1 t.m2 * Real.sqrt x ^ 5 * (padeN (Real.sqrt x) / padeD (Real.sqrt x))) := by ring
  linarith

/-- ... but not at every frequency: at x = 4 it is positive. -/
theorem C78_sign_flips (t : ThetaT) (h1 : 0 < t.m1) (h2 : 0 < t.m2) {k : ℝ} (hk : 0 < k) : 0 < get_tidal_phase 4 t k := by
  have he : 0 < Spec.eta t.m1 t.m2 := by unfold Spec.eta; positivity
  have key := tidal_phase_sq t h1 h2 k (s := 2) (by norm_num)
  rw [show (2 : ℝ) ^ 2 = 4 by norm_num] at key
  rw [key]
  have hr : padeN 2 / padeD 2 < 0 := by unfold padeN padeD; norm_num
  have hp : 0 < 39 / 16 * k / Spec.eta t.m1 t.m2 * 2 ^ 5 := by positivity
  have e : -(39 / 16) * k / Spec.eta t.m1 t.m2 * 2 ^ 5 * (padeN 2 / padeD 2) =
      39 / 16 * k / Spec.eta t.m1 t.m2 * 2 ^ 5 * -(padeN 2 / padeD 2) := by ring
  rw [e]
  exact mul_pos hp (neg_pos.2 hr)

/-- The tidal amplitude is never positive. -/
theorem C78_amplitude_sign (t : ThetaT) (h1 : 0 < t.m1) (h2 : 0 < t.m2) {k D x : ℝ} (hk : 0 < k) (hD : 0 < D)
    (hx : 0 < x) : get_tidal_amplitude x t k D < 0 := by
  have hg := gt_pos
  have hm := MRSUN_pos
  have hmp := m_per_Mpc_pos
  have hp := PI_pos
  unfold get_tidal_amplitude get_amp0_lal
  simp only
  have : 0 < 9 * k * x ^ ((13 : ℝ) / 4) * ((1 + 4.157407407407407 * x + 2519.111111111111 * x ^ ((289 : ℝ) / 100)) /
      (1 + 13477.8073677 * x ^ 4)) * (2 * Real.sqrt (5 / (64 * PI)) * (t.m1 + t.m2) * MRSUN * (t.m1 + t.m2) * gt /
      (D * m_per_Mpc) * 2 * Real.sqrt (PI / 5)) := by positivity
  linarith

/-! ### C80 equal-mass agreement with TaylorF2 through 6.5PN -/

lemma pade_taylor {s : ℝ} (hs : 0 ≤ s) (h : s ≤ 1 / 2) :
    |padeN s / padeD s - (1 + 3115 / 1248 * s ^ 2 - Real.pi * s ^ 3 + 28024205 / 3302208 * s ^ 4)| ≤
      1e-8 * s ^ 2 + 700 * s ^ 5 := by
  have hD := padeD_bound hs
  have hD0 : 0 < padeD s := by linarith
  have p1 := Real.pi_gt_d20
  have p2 := Real.pi_lt_d20
  rw [div_sub' hD0.ne', abs_div, abs_of_pos hD0, div_le_iff₀ hD0]
  have hb : 0 ≤ 1e-8 * s ^ 2 + 700 * s ^ 5 := by positivity
  refine le_trans ?_ (mul_le_mul_of_nonneg_left hD hb)
  have q2 : 0 ≤ s ^ 2 := by positivity
  have q3 : 0 ≤ s ^ 3 := by positivity
  have q4 : 0 ≤ s ^ 4 := by positivity
  have q5 : 0 ≤ s ^ 5 := by positivity
  have q6 : 0 ≤ s ^ 6 := by positivity
  have q7 : 0 ≤ s ^ 7 := by positivity
  have q8 : 0 ≤ s ^ 8 := by positivity
  have r3 : s ^ 3 ≤ 1 / 2 * s ^ 2 := by nlinarith
  have r4 : s ^ 4 ≤ 1 / 2 * s ^ 3 := by nlinarith
  have r6 : s ^ 6 ≤ 1 / 2 * s ^ 5 := by nlinarith
  have r7 : s ^ 7 ≤ 1 / 2 * s ^ 6 := by nlinarith
  have r8 : s ^ 8 ≤ 1 / 2 * s ^ 7 := by nlinarith
  obtain ⟨e, he⟩ : ∃ e, Real.pi = 3.14159265358979323846 + e := ⟨_, (add_sub_cancel _ _).symm⟩
  have e1 : 0 < e := by linarith
  have e2 : e < 1e-20 := by linarith
  rw [he]
  have m3 : e * s ^ 3 ≤ 1e-20 * s ^ 3 := mul_le_mul_of_nonneg_right e2.le q3
  have m5 : e * s ^ 5 ≤ 1e-20 * s ^ 5 := mul_le_mul_of_nonneg_right e2.le q5
  have m6 : e * s ^ 6 ≤ 1e-20 * s ^ 6 := mul_le_mul_of_nonneg_right e2.le q6
  have m7 : e * s ^ 7 ≤ 1e-20 * s ^ 7 := mul_le_mul_of_nonneg_right e2.le q7
  have n3 : 0 ≤ e * s ^ 3 := by positivity
  have n5 : 0 ≤ e * s ^ 5 := by positivity
  have n6 : 0 ≤ e * s ^ 6 := by positivity
  have n7 : 0 ≤ e * s ^ 7 := by positivity
  unfold padeN padeD
  rw [abs_le]
  constructor <;> linarith

/-- For equal masses, and any deformabilities, the NRTidalv2 tidal phase reproduces the 5PN, 6PN and 6.5PN tidal terms of the
    TaylorF2 series; its 7PN term is 28024205/3302208 of the leading one while that of TaylorF2 is 379931975/44579808 of
    it. Relative to the leading term the remainder is at most 1e-8 v^2 + 700 v^5 for every 0 < v ≤ 1/2. -/
theorem C80_equal_mass (t : ThetaT) (h1 : 0 < t.m1) (h12 : t.m2 = t.m1) {v : ℝ} (hv : 0 < v) (hv' : v ≤ 1 / 2) :
    let c := get_PNPhasing_F2 t.m1 t.m2 t.chi1 t.chi2 t.lambda1 t.lambda2
    c.p14 = 379931975 / 44579808 * c.p10 ∧
    |get_tidal_phase (v ^ 2) t (get_kappa t)
        - (c.p10 * v ^ 10 + c.p12 * v ^ 12 + c.p13 * v ^ 13 + 28024205 / 3302208 * c.p10 * v ^ 14) / v ^ 5| ≤
      |c.p10 * v ^ 5| * (1e-8 * v ^ 2 + 700 * v ^ 5) := by
  intro c
  have h2 : 0 < t.m2 := by rw [h12]; exact h1
  have he : Spec.eta t.m1 t.m2 = 1 / 4 := by
    rw [h12]; unfold Spec.eta; field_simp; norm_num
  have hX : t.m1 / (t.m1 + t.m2) = 1 / 2 := by rw [h12]; field_simp; norm_num
  have hX2 : t.m2 / (t.m1 + t.m2) = 1 / 2 := by rw [h12]; field_simp; norm_num
  have hL := lambdaTilde_X (l1 := t.lambda1) (l2 := t.lambda2) h1 h2
  rw [hX, hX2] at hL
  have hd : Spec.delta t.m1 t.m2 = 0 := by rw [h12]; unfold Spec.delta; simp
  have e10 : c.p10 = Spec.psi10 t.m1 t.lambda1 t.m2 t.lambda2 * (3 / 32) := by
    show (get_PNPhasing_F2 _ _ _ _ _ _).p10 = _
    rw [p10_eq h1 h2, he]; norm_num
  have e12 : c.p12 = c.p10 * (3115 / 1248) := by
    show (get_PNPhasing_F2 _ _ _ _ _ _).p12 = _
    rw [p12_eq h1 h2, he, e10, Spec.psi12, Spec.psi10, hd]; ring
  have e13 : c.p13 = c.p10 * (-Real.pi) := by
    show (get_PNPhasing_F2 _ _ _ _ _ _).p13 = _
    rw [p13_eq h1 h2, he, e10, Spec.psi13, Spec.psi10]; ring
  have e14 : c.p14 = 379931975 / 44579808 * c.p10 := by
    show (get_PNPhasing_F2 _ _ _ _ _ _).p14 = _
    rw [p14_eq h1 h2, he, e10, Spec.psi14, Spec.psi10, hX, hX2, Spec.psi14, hL]; ring
  have key : get_tidal_phase (v ^ 2) t (get_kappa t)
        - (c.p10 * v ^ 10 + c.p12 * v ^ 12 + c.p13 * v ^ 13 + 28024205 / 3302208 * c.p10 * v ^ 14) / v ^ 5 = c.p10 * v ^ 5 *
      (padeN v / padeD v - (1 + 3115 / 1248 * v ^ 2 - Real.pi * v ^ 3 + 28024205 / 3302208 * v ^ 4)) := by
    rw [tidal_phase_sq t h1 h2 _ hv.le, C43_kappa t h1 h2, e12, e13, he, e10, Spec.psi10]
    field_simp
    ring
  refine ⟨e14, ?_⟩
  rw [key, abs_mul]
  exact mul_le_mul_of_nonneg_left (pade_taylor hv.le hv') (abs_nonneg _)

/-! ### C79 spin-induced quadrupole -/

/-- The part of the phase correction at 2PN and 3PN is the difference of the TaylorF2 spin-spin terms (which the code
    of TaylorF2 implements, theorem C75) at the quadrupole parameter of the star and at 1, the value for a black hole; what
    is left is a 3.5PN term proportional to v². -/
theorem C79_quadrupole (t : ThetaT) (h1 : 0 < t.m1) (h2 : 0 < t.m2) :
    let X1 := t.m1 / (t.m1 + t.m2)
    let X2 := t.m2 / (t.m1 + t.m2)
    let q1 := (get_quadparam_octparam t.lambda1).1
    let q2 := (get_quadparam_octparam t.lambda2).1
    ∃ R : ℝ, ∀ v : ℝ, 0 < v → get_spin_phase_correction (v ^ 2) t = 3 / (128 * Spec.eta t.m1 t.m2) *
      ((Spec.psi4SS X1 X2 t.chi1 t.chi2 q1 q2 - Spec.psi4SS X1 X2 t.chi1 t.chi2 1 1) * (v ^ 4 / v ^ 5)
        + (Spec.psi6SS X1 X2 t.chi1 t.chi2 q1 q2 - Spec.psi6SS X1 X2 t.chi1 t.chi2 1 1) * (v ^ 6 / v ^ 5)
        + R * (v ^ 7 / v ^ 5)) := by
  intro X1 X2 q1 q2
  set r1 := (get_quadparam_octparam t.lambda1).2
  set r2 := (get_quadparam_octparam t.lambda2).2
  refine ⟨-400 * PI * ((q1 - 1) * t.chi1 ^ 2 * X1 ^ 2 + (q2 - 1) * t.chi2 ^ 2 * X2 ^ 2)
    + 10 * ((X1 ^ 2 + 308 / 3 * X1) * t.chi1 + (X2 ^ 2 - 89 / 3 * X2) * t.chi2) * (q1 - 1) * X1 ^ 2 * t.chi1 ^ 2
    + 10 * ((X2 ^ 2 + 308 / 3 * X2) * t.chi2 + (X1 ^ 2 - 89 / 3 * X1) * t.chi1) * (q2 - 1) * X2 ^ 2 * t.chi2 ^ 2
    - 440 * (r1 - 1) * X1 ^ 3 * t.chi1 ^ 3 - 440 * (r2 - 1) * X2 ^ 3 * t.chi2 ^ 3, fun v hv => ?_⟩
  have ea : (v ^ 2 : ℝ) ^ (-((1 : ℝ) / 2)) = v⁻¹ := by
    rw [← Real.rpow_natCast v 2, ← Real.rpow_mul hv.le, ← Real.rpow_neg_one]; norm_num
  have eb : (v ^ 2 : ℝ) ^ ((1 : ℝ) / 2) = v := by
    rw [← Real.rpow_natCast v 2, ← Real.rpow_mul hv.le]; norm_num
  have hg := gt_pos
  have x1 : t.m1 * gt / (t.m1 * gt + t.m2 * gt) = X1 := by simp only [X1]; field_simp
  have x2 : t.m2 * gt / (t.m1 * gt + t.m2 * gt) = X2 := by simp only [X2]; field_simp
  have v1 : v ^ 4 / v ^ 5 = v⁻¹ := by field_simp
  have v2 : v ^ 6 / v ^ 5 = v := by field_simp
  have v3 : v ^ 7 / v ^ 5 = v ^ 2 := by field_simp
  unfold get_spin_phase_correction
  simp only [ea, eb, x1, x2, v1, v2, v3, eta_s h1 h2]
  simp only [Spec.psi4SS, Spec.psi6SS]
  show 3 / (128 * Spec.eta t.m1 t.m2) * (_ + _ + _) = _
  congr 1
  ring

/-! ### C48 merger frequency -/

/-- the rational factor of the merger frequency -/
noncomputable def mergerRatio (k : ℝ) : ℝ := (1 + 3.35411203e-2 * k + 4.31460284e-5 * (k * k)) /
  (1 + 7.54224145e-2 * k + 2.23626859e-4 * (k * k))

lemma merger_eq (t : ThetaT) (h1 : 0 < t.m1) (h2 : 0 < t.m2) (k : ℝ) : _get_merger_frequency t k =
    0.3586 * Real.sqrt (t.m2 / t.m1) / (2 * Real.pi * ((t.m1 + t.m2) * gt)) * mergerRatio k := by
  have hg := gt_pos
  have : (t.m1 * gt / (t.m2 * gt)) ^ (-((1 : ℝ) / 2)) = Real.sqrt (t.m2 / t.m1) := by
    rw [Real.rpow_neg (by positivity), ← Real.sqrt_eq_rpow, ← Real.sqrt_inv]
    congr 1
    field_simp
  unfold _get_merger_frequency mergerRatio
  simp only [this, TWO_PI]
  have := Real.pi_pos
  field_simp

lemma mergerRatio_pos {k : ℝ} (hk : 0 ≤ k) : 0 < mergerRatio k := by unfold mergerRatio; positivity

lemma mergerRatio_lt {k k' : ℝ} (hk : 0 ≤ k) (h : k < k') : mergerRatio k' < mergerRatio k := by
  unfold mergerRatio
  have hk' : 0 < k' := by linarith
  rw [div_lt_div_iff₀ (by positivity) (by positivity)]
  have a : 0 < k' - k := by linarith
  nlinarith [mul_nonneg hk hk'.le, mul_nonneg (mul_nonneg hk hk'.le) a.le, mul_nonneg hk a.le, mul_nonneg hk'.le a.le]

lemma mergerRatio_le {k : ℝ} (hk : 0 ≤ k) : mergerRatio k ≤ 1 := by
  unfold mergerRatio
  rw [div_le_one (by positivity)]
  nlinarith [mul_nonneg hk hk]

theorem C48_positive (t : ThetaT) (h1 : 0 < t.m1) (h2 : 0 < t.m2) {k : ℝ} (hk : 0 ≤ k) :
    0 < _get_merger_frequency t k := by
  have hg := gt_pos
  have := Real.pi_pos
  have := mergerRatio_pos hk
  rw [merger_eq t h1 h2]
  positivity

theorem C48_decreasing (t : ThetaT) (h1 : 0 < t.m1) (h2 : 0 < t.m2) {k k' : ℝ} (hk : 0 ≤ k) (h : k < k') :
    _get_merger_frequency t k' < _get_merger_frequency t k := by
  have hg := gt_pos
  have := Real.pi_pos
  rw [merger_eq t h1 h2, merger_eq t h1 h2]
  exact mul_lt_mul_of_pos_left (mergerRatio_lt hk h) (by positivity)

theorem C48_scaling (m1 m2 c1 c2 l1 l2 : ℝ) (h1 : 0 < m1) (h2 : 0 < m2) (k s : ℝ) (hs : 0 < s) :
    _get_merger_frequency ⟨s * m1, s * m2, c1, c2, l1, l2⟩ k = _get_merger_frequency ⟨m1, m2, c1, c2, l1, l2⟩ k / s := by
  have hg := gt_pos
  have := Real.pi_pos
  rw [merger_eq _ (by simp only; positivity) (by simp only; positivity), merger_eq _ (by simpa) (by simpa)]
  simp only
  rw [mul_div_mul_left _ _ hs.ne']
  field_simp

theorem C48_black_hole (t : ThetaT) (h1 : 0 < t.m1) (h2 : 0 < t.m2) :
    _get_merger_frequency t 0 = 0.3586 * Real.sqrt (t.m2 / t.m1) / (2 * Real.pi * ((t.m1 + t.m2) * gt)) := by
  rw [merger_eq t h1 h2]; unfold mergerRatio; norm_num

example : ∃ (t : ThetaT) (k : ℝ), 0 < t.m1 ∧ 0 < t.m2 ∧ 0 ≤ k := ⟨⟨1.4, 1.3, 0, 0, 400, 400⟩, 3, by norm_num⟩

/-! ### C47 quadrupole fit -/

/-- quadrupole parameter 1 for a black hole, at least 1 for every star, larger than 1 if deformable -/
theorem C47_quadparam (l : ℝ) (hl : 0 ≤ l) :
    (get_quadparam_octparam 0).1 = 1 ∧ 1 ≤ (get_quadparam_octparam l).1 ∧
      (0 < l → 1 < (get_quadparam_octparam l).1) := by
  have key : 0 < l → 1 < (get_quadparam_octparam l).1 := by
    intro hl
    unfold get_quadparam_octparam
    split_ifs with h
    · simp only [_get_quadparam_octparam_low]
      have : 0 < 0.427688866723244 + l * (-0.324336526985068 + l * 0.1107439432180572) := by
        nlinarith [sq_nonneg (l - 1.46)]
      have := mul_pos hl this
      linarith
    · simp only [_get_quadparam_octparam_high, universal_relation]
      rw [not_lt] at h
      have hL := Real.log_nonneg h
      set L := Real.log l
      rw [← Real.exp_zero, Real.exp_lt_exp]
      simp [Matrix.cons_val]
      have : 0 ≤ L ^ 2 * (0.04812 - 4.283e-3 * L + 1.245e-4 * L ^ 2) := by
        refine mul_nonneg (sq_nonneg _) ?_
        nlinarith [sq_nonneg (L - 17.2)]
      nlinarith
  refine ⟨?_, ?_, key⟩
  · unfold get_quadparam_octparam
    rw [if_pos (by norm_num)]
    simp [_get_quadparam_octparam_low]
  · rcases hl.lt_or_eq with h | h
    · exact (key h).le
    · rw [← h]
      unfold get_quadparam_octparam
      rw [if_pos (by norm_num)]
      simp [_get_quadparam_octparam_low]

lemma exp_194 : |Real.exp 0.194 - 1.2140962829562332| ≤ 1e-12 := by
  have h := Real.exp_bound (x := 0.194) (by norm_num [abs_of_pos]) (n := 12) (by norm_num)
  have e : |(0.194 : ℝ)| = 0.194 := abs_of_pos (by norm_num)
  rw [e] at h
  norm_num [Finset.sum_range_succ, Nat.factorial] at h
  rw [abs_le] at h ⊢
  constructor <;> norm_num at h ⊢ <;> linarith [h.1, h.2]

/-- The two branches meet at lambda = 1 to within 1e-9 in value... -/
theorem C47_value : |(_get_quadparam_octparam_low 1).1 - (_get_quadparam_octparam_high 1).1| ≤ 1e-9 := by
  have h := exp_194
  simp only [_get_quadparam_octparam_low, _get_quadparam_octparam_high, universal_relation, Real.log_one]
  simp [Matrix.cons_val]
  rw [abs_le] at h ⊢
  norm_num at h ⊢
  constructor <;> linarith [h.1, h.2]

/-- exponent of the high branch as a function of L = log lambda -/
noncomputable def quadExp (L : ℝ) : ℝ := 0.1940 + 0.09163 * L + 0.04812 * L ^ 2 + -4.283e-3 * L ^ 3 + 1.245e-4 * L ^ 4
noncomputable def quadExp' (L : ℝ) : ℝ := 0.09163 + 0.04812 * (2 * L) + -4.283e-3 * (3 * L ^ 2) + 1.245e-4 * (4 * L ^ 3)

lemma quad_high (l : ℝ) : (_get_quadparam_octparam_high l).1 = Real.exp (quadExp (Real.log l)) := by
  simp [_get_quadparam_octparam_high, universal_relation, quadExp]

lemma quadExp_deriv (L : ℝ) : HasDerivAt quadExp (quadExp' L) L := by
  have h1 := (hasDerivAt_id L).const_mul 0.09163
  have h2 := ((hasDerivAt_id L).pow 2).const_mul 0.04812
  have h3 := ((hasDerivAt_id L).pow 3).const_mul (-4.283e-3)
  have h4 := ((hasDerivAt_id L).pow 4).const_mul 1.245e-4
  have := (((h1.const_add 0.1940).add h2).add h3).add h4
  refine HasDerivAt.congr_deriv this ?_
  simp [quadExp']

lemma quad_high_deriv {l : ℝ} (hl : 0 < l) : HasDerivAt (fun l => (_get_quadparam_octparam_high l).1)
    (Real.exp (quadExp (Real.log l)) * (quadExp' (Real.log l) * l⁻¹)) l := by
  simp only [quad_high]
  exact ((quadExp_deriv _).comp l (Real.hasDerivAt_log hl.ne')).exp

/-- ... in slope... -/
theorem C47_slope : ∃ a b : ℝ, HasDerivAt (fun l => (_get_quadparam_octparam_low l).1) a 1 ∧
    HasDerivAt (fun l => (_get_quadparam_octparam_high l).1) b 1 ∧ |a - b| ≤ 1e-9 := by
  have hl : HasDerivAt (fun l => (_get_quadparam_octparam_low l).1)
      (0.427688866723244 + 2 * -0.324336526985068 + 3 * 0.1107439432180572) 1 := by
    simp only [_get_quadparam_octparam_low]
    have h1 := (((hasDerivAt_id (1 : ℝ)).mul_const (0.1107439432180572 : ℝ)).const_add (-0.324336526985068 : ℝ))
    have h2 := ((hasDerivAt_id (1 : ℝ)).mul h1).const_add (0.427688866723244 : ℝ)
    have h3 := ((hasDerivAt_id (1 : ℝ)).mul h2).const_add (1 : ℝ)
    refine HasDerivAt.congr_deriv h3 ?_
    simp
    norm_num
  refine ⟨_, _, hl, quad_high_deriv one_pos, ?_⟩
  have h := exp_194
  simp only [Real.log_one, quadExp, quadExp']
  norm_num at h ⊢
  rw [abs_le] at h ⊢
  constructor <;> linarith [h.1, h.2]

/-- ... and in curvature. -/
theorem C47_curvature : ∃ a b : ℝ, HasDerivAt (deriv fun l => (_get_quadparam_octparam_low l).1) a 1 ∧
    HasDerivAt (deriv fun l => (_get_quadparam_octparam_high l).1) b 1 ∧ |a - b| ≤ 1e-9 := by
  have hl0 : ∀ l : ℝ, HasDerivAt (fun l => (_get_quadparam_octparam_low l).1)
      (0.427688866723244 + 2 * -0.324336526985068 * l + 3 * 0.1107439432180572 * l ^ 2) l := by
    intro l
    simp only [_get_quadparam_octparam_low]
    have h1 := (((hasDerivAt_id (l : ℝ)).mul_const (0.1107439432180572 : ℝ)).const_add (-0.324336526985068 : ℝ))
    have h2 := ((hasDerivAt_id (l : ℝ)).mul h1).const_add (0.427688866723244 : ℝ)
    have h3 := ((hasDerivAt_id (l : ℝ)).mul h2).const_add (1 : ℝ)
    refine HasDerivAt.congr_deriv h3 ?_
    simp
    ring
  have hl1 : HasDerivAt (deriv fun l => (_get_quadparam_octparam_low l).1)
      (2 * -0.324336526985068 + 3 * 0.1107439432180572 * 2) 1 := by
    have e : (deriv fun l => (_get_quadparam_octparam_low l).1) = fun l : ℝ =>
        0.427688866723244 + 2 * -0.324336526985068 * l + 3 * 0.1107439432180572 * l ^ 2 := by
      funext l; exact (hl0 l).deriv
    rw [e]
    have h1 := ((hasDerivAt_id (1 : ℝ)).const_mul (2 * -0.324336526985068 : ℝ)).const_add (0.427688866723244 : ℝ)
    have h2 := ((hasDerivAt_id (1 : ℝ)).pow 2).const_mul (3 * 0.1107439432180572 : ℝ)
    refine HasDerivAt.congr_deriv (h1.add h2) ?_
    simp
  have hq' : HasDerivAt quadExp' (2 * 0.04812) 0 := by
    have h1 := ((hasDerivAt_id (0 : ℝ)).const_mul 2).const_mul (0.04812 : ℝ)
    have h2 := (((hasDerivAt_id (0 : ℝ)).pow 2).const_mul 3).const_mul (-4.283e-3 : ℝ)
    have h3 := (((hasDerivAt_id (0 : ℝ)).pow 3).const_mul 4).const_mul (1.245e-4 : ℝ)
    refine HasDerivAt.congr_deriv (((h1.const_add 0.09163).add h2).add h3) ?_
    simp
    norm_num
  have hh1 : HasDerivAt (deriv fun l => (_get_quadparam_octparam_high l).1)
      (Real.exp 0.194 * (0.09163 * 0.09163 + (2 * 0.04812 - 0.09163))) 1 := by
    have e : (deriv fun l => (_get_quadparam_octparam_high l).1) =ᶠ[𝓝 1]
        fun l => Real.exp (quadExp (Real.log l)) * (quadExp' (Real.log l) * l⁻¹) := by
      filter_upwards [lt_mem_nhds (one_pos (α := ℝ))] with l hl
      exact (quad_high_deriv hl).deriv
    refine HasDerivAt.congr_of_eventuallyEq ?_ e
    have a := ((quadExp_deriv _).comp 1 (Real.hasDerivAt_log one_ne_zero)).exp
    have hq'' : HasDerivAt quadExp' (2 * 0.04812) (Real.log 1) := by rw [Real.log_one]; exact hq'
    have b := (hq''.comp 1 (Real.hasDerivAt_log one_ne_zero)).mul (hasDerivAt_inv (one_ne_zero (α := ℝ)))
    have := a.mul b
    refine HasDerivAt.congr_deriv this ?_
    simp [quadExp, quadExp', Function.comp]
    norm_num
    ring
  refine ⟨_, _, hl1, hh1, ?_⟩
  have h := exp_194
  norm_num at h ⊢
  rw [abs_le] at h ⊢
  constructor <;> linarith [h.1, h.2]

/-- In both branches the octupole parameter is the same function of the quadrupole parameter. -/
theorem C47_octupole (l : ℝ) (_hl : 0 ≤ l) :
    (get_quadparam_octparam l).2 = Real.exp (0.003131 + 2.071 * Real.log (get_quadparam_octparam l).1
      - 0.7152 * Real.log (get_quadparam_octparam l).1 ^ 2 + 0.2458 * Real.log (get_quadparam_octparam l).1 ^ 3
      - 0.03309 * Real.log (get_quadparam_octparam l).1 ^ 4) := by
  unfold get_quadparam_octparam
  split_ifs with h
  · simp [_get_quadparam_octparam_low, universal_relation]
    ring
  · simp [_get_quadparam_octparam_high, universal_relation]
    ring

end Ripple

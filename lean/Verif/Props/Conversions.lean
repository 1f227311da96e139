/-
  Properties C01–C11: parameter conversions and samplers (src/ripplegw/__init__.py).
-/
import Verif.Proofs.Conversions
import Verif.Spec.Tidal

namespace Ripple
open Real

/-! ### C01 round trips -/

theorem C01_roundtrip_Mc_eta (Mc eta : ℝ) (hMc : 0 < Mc) (h0 : 0 < eta) (h1 : eta ≤ 1 / 4) :
    ms_to_Mc_eta (Mc_eta_to_ms Mc eta).1 (Mc_eta_to_ms Mc eta).2 = (Mc, eta) := by
  rw [Mc_eta_to_ms_eq hMc h0]
  have hp : 0 < eta ^ ((3 : ℝ) / 5) := rpow_pos_of_pos h0 _
  have hs := sq_sqrt_eta h1
  set s := √(1 - 4 * eta)
  set M := Mc / eta ^ ((3 : ℝ) / 5) with hMdef
  have hM : 0 < M := div_pos hMc hp
  have hprod : M * (1 + s) / 2 * (M * (1 - s) / 2) = M ^ 2 * eta := by
    linear_combination (-M ^ 2 / 4) * hs
  have hsum : M * (1 + s) / 2 + M * (1 - s) / 2 = M := by ring
  simp only [ms_to_Mc_eta, hprod, hsum]
  refine Prod.ext ?_ ?_
  · show (M ^ 2 * eta) ^ ((3 : ℝ) / 5) / M ^ ((1 : ℝ) / 5) = Mc
    rw [Real.mul_rpow (by positivity) h0.le, ← Real.rpow_natCast, ← Real.rpow_mul hM.le,
      show (((2 : ℕ) : ℝ) * (3 / 5)) = 1 + 1 / 5 by norm_num, Real.rpow_add hM, Real.rpow_one]
    have := (rpow_pos_of_pos hM ((1 : ℝ) / 5)).ne'
    rw [show M * M ^ ((1 : ℝ) / 5) * eta ^ ((3 : ℝ) / 5) / M ^ ((1 : ℝ) / 5)
      = M * eta ^ ((3 : ℝ) / 5) by field_simp, hMdef]
    field_simp
  · show M ^ 2 * eta / M ^ 2 = eta
    field_simp

theorem C01_roundtrip_masses (m1 m2 : ℝ) (h1 : 0 < m1) (h2 : 0 < m2) :
    Mc_eta_to_ms (ms_to_Mc_eta m1 m2).1 (ms_to_Mc_eta m1 m2).2 = (max m1 m2, min m1 m2) := by
  have hM : 0 < m1 + m2 := by positivity
  have hMc : 0 < (ms_to_Mc_eta m1 m2).1 := by
    simp only [ms_to_Mc_eta]; positivity
  have he : 0 < (ms_to_Mc_eta m1 m2).2 := (eta_of_masses h1 h2).1
  rw [Mc_eta_to_ms_eq hMc he]
  simp only [ms_to_Mc_eta, total_mass_of_Mc h1 h2, sqrt_one_sub_four_eta h1 h2]
  rcases le_total m1 m2 with h | h
  · rw [abs_of_nonpos (by linarith), max_eq_right h, min_eq_left h]
    ext <;> simp <;> field_simp <;> ring
  · rw [abs_of_nonneg (by linarith), max_eq_left h, min_eq_right h]
    ext <;> simp <;> field_simp <;> ring

/-- witness: the hypotheses of C01 are met by a neutron-star binary with η strictly inside (0, 1/4]. -/
example : ∃ Mc eta : ℝ, 0 < Mc ∧ 0 < eta ∧ eta ≤ 1 / 4 ∧ eta ≠ 1 / 4 := ⟨1.2, 0.24, by norm_num⟩

/-! ### C02 domain and ordering -/

theorem C02_masses_ordered (Mc eta : ℝ) (hMc : 0 < Mc) (h0 : 0 < eta) (h1 : eta ≤ 1 / 4) :
    0 < (Mc_eta_to_ms Mc eta).2 ∧ (Mc_eta_to_ms Mc eta).2 ≤ (Mc_eta_to_ms Mc eta).1 ∧
    ((Mc_eta_to_ms Mc eta).1 = (Mc_eta_to_ms Mc eta).2 ↔ eta = 1 / 4) := by
  rw [Mc_eta_to_ms_eq hMc h0]
  have hp : 0 < eta ^ ((3 : ℝ) / 5) := rpow_pos_of_pos h0 _
  have hs := sq_sqrt_eta h1
  have hlt := sqrt_eta_lt_one h0
  have hnn : 0 ≤ √(1 - 4 * eta) := Real.sqrt_nonneg _
  set s := √(1 - 4 * eta)
  set M := Mc / eta ^ ((3 : ℝ) / 5)
  have hM : 0 < M := div_pos hMc hp
  refine ⟨by nlinarith, by nlinarith, ?_⟩
  constructor
  · intro h
    have : M * s = 0 := by simp only at h; linarith
    have hs0 : s = 0 := by rcases mul_eq_zero.1 this with h | h; exact absurd h hM.ne'; exact h
    rw [hs0] at hs; linarith
  · intro h
    have : s ^ 2 = 0 := by rw [hs, h]; norm_num
    have hs0 : s = 0 := by simpa using this
    rw [hs0]; ring

/-- On 0 < η ≤ 1/4 the float function returns the finite real values of `Mc_eta_to_ms`. -/
theorem C02_finite_on_domain (Mc eta : ℝ) (_hMc : 0 < Mc) (h0 : 0 < eta) (h1 : eta ≤ 1 / 4) :
    Mc_eta_to_msX (.fin Mc) (.fin eta) =
      (.fin (Mc_eta_to_ms Mc eta).1, .fin (Mc_eta_to_ms Mc eta).2) := by
  have hp : 0 < eta ^ ((3 : ℝ) / 5) := rpow_pos_of_pos h0 _
  have hq : 0 ≤ Mc / eta ^ ((3 : ℝ) / 5) * (Mc / eta ^ ((3 : ℝ) / 5)) -
      4 * (Mc / eta ^ ((3 : ℝ) / 5) * (Mc / eta ^ ((3 : ℝ) / 5))) * eta := by
    have : 0 ≤ (Mc / eta ^ ((3 : ℝ) / 5)) ^ 2 * (1 - 4 * eta) :=
      mul_nonneg (sq_nonneg _) (by linarith)
    nlinarith
  simp only [Mc_eta_to_msX, XR.powFrac, not_lt.2 h0.le, if_false, XR.div_fin _ hp.ne', XR.mul_fin,
    XR.sub_fin, XR.sqrt_fin hq, XR.div_fin _ (two_ne_zero (α := ℝ)), Mc_eta_to_ms, pow_two]

/-- Outside 0 < η ≤ 1/4 both outputs are NaN. -/
theorem C02_nan_off_domain (Mc eta : ℝ) (hMc : 0 < Mc) (h : eta ≤ 0 ∨ 1 / 4 < eta) :
    Mc_eta_to_msX (.fin Mc) (.fin eta) = (.nan, .nan) := by
  rcases h with h | h
  · rcases h.lt_or_eq with h | rfl
    · simp [Mc_eta_to_msX, XR.powFrac, h]
    · have e0 : (0 : ℝ) ^ ((3 : ℝ) / 5) = 0 := Real.zero_rpow (by norm_num)
      have e1 : XR.pinf * XR.pinf = .pinf := rfl
      have e2 : XR.fin 4 * XR.pinf = .pinf := by
        show XR.infMul 4 = _; simp [XR.infMul]
      have e3 : XR.pinf * XR.fin 0 = .nan := by
        show XR.infMul 0 = _; simp [XR.infMul]
      simp [Mc_eta_to_msX, XR.powFrac, e0, XR.div_fin_zero_pos hMc, e1, e2, e3]
  · have h0 : 0 < eta := by linarith
    have hp : 0 < eta ^ ((3 : ℝ) / 5) := rpow_pos_of_pos h0 _
    have hM : 0 < Mc / eta ^ ((3 : ℝ) / 5) := div_pos hMc hp
    have hq : Mc / eta ^ ((3 : ℝ) / 5) * (Mc / eta ^ ((3 : ℝ) / 5)) -
      4 * (Mc / eta ^ ((3 : ℝ) / 5) * (Mc / eta ^ ((3 : ℝ) / 5))) * eta < 0 := by
      have : 0 < (Mc / eta ^ ((3 : ℝ) / 5)) ^ 2 * (4 * eta - 1) :=
        mul_pos (by positivity) (by linarith)
      nlinarith
    simp [Mc_eta_to_msX, XR.powFrac, not_lt.2 h0.le, XR.div_fin _ hp.ne', XR.sqrt_fin_neg hq]

example : ∃ Mc eta : ℝ, 0 < Mc ∧ (eta ≤ 0 ∨ 1 / 4 < eta) := ⟨1.2, 0.26, by norm_num⟩

/-! ### C03 symmetric mass ratio -/

theorem C03_eta_range (m1 m2 : ℝ) (h1 : 0 < m1) (h2 : 0 < m2) :
    0 < (ms_to_Mc_eta m1 m2).1 ∧ 0 < (ms_to_Mc_eta m1 m2).2 ∧ (ms_to_Mc_eta m1 m2).2 ≤ 1 / 4 ∧
    ((ms_to_Mc_eta m1 m2).2 = 1 / 4 ↔ m1 = m2) := by
  refine ⟨by simp only [ms_to_Mc_eta]; positivity, (eta_of_masses h1 h2).1, (eta_of_masses h1 h2).2, ?_⟩
  simp only [ms_to_Mc_eta]
  rw [div_eq_iff (by positivity)]
  constructor
  · intro h
    have : (m1 - m2) ^ 2 = 0 := by nlinarith
    have := pow_eq_zero_iff (n := 2) (by norm_num) |>.1 this
    linarith
  · rintro rfl; ring

theorem C03_exchange (m1 m2 : ℝ) : ms_to_Mc_eta m1 m2 = ms_to_Mc_eta m2 m1 := by
  simp only [ms_to_Mc_eta, mul_comm m1 m2, add_comm m1 m2]

theorem C03_scaling (m1 m2 k : ℝ) (h1 : 0 < m1) (h2 : 0 < m2) (hk : 0 < k) :
    ms_to_Mc_eta (k * m1) (k * m2) = (k * (ms_to_Mc_eta m1 m2).1, (ms_to_Mc_eta m1 m2).2) := by
  simp only [ms_to_Mc_eta]
  refine Prod.ext ?_ ?_
  · show (k * m1 * (k * m2)) ^ ((3 : ℝ) / 5) / (k * m1 + k * m2) ^ ((1 : ℝ) / 5) = _
    rw [show k * m1 * (k * m2) = k ^ 2 * (m1 * m2) by ring, show k * m1 + k * m2 = k * (m1 + m2) by ring,
      Real.mul_rpow (x := k ^ 2) (by positivity) (by positivity),
      Real.mul_rpow (x := k) (y := m1 + m2) (by positivity) (by positivity),
      ← Real.rpow_natCast, ← Real.rpow_mul hk.le,
      show (((2 : ℕ) : ℝ) * (3 / 5)) = 1 + 1 / 5 by norm_num, Real.rpow_add hk, Real.rpow_one]
    have := (rpow_pos_of_pos hk ((1 : ℝ) / 5)).ne'
    field_simp
  · show k * m1 * (k * m2) / (k * m1 + k * m2) ^ 2 = _
    field_simp

/-! ### C04 physical definition of Λ̃ -/

theorem C04_lambda_tilde_physical (l1 l2 m1 m2 : ℝ) (h2 : 0 < m2) (h12 : m2 ≤ m1) :
    (lambdas_to_lambda_tildes l1 l2 m1 m2).1 = Spec.lambdaTilde m1 l1 m2 l2 := by
  have h1 : 0 < m1 := lt_of_lt_of_le h2 h12
  simp only [lambdas_to_lambda_tildes, ms_to_Mc_eta, rpow_half, sqrt_one_sub_four_eta h1 h2,
    abs_of_nonneg (sub_nonneg.2 h12), Spec.lambdaTilde]
  field_simp
  ring

example : ∃ m1 m2 : ℝ, 0 < m2 ∧ m2 ≤ m1 := ⟨1.4, 1.3, by norm_num⟩

/-! ### C05 round trip of the tidal parameters -/

theorem C05_roundtrip (l1 l2 m1 m2 : ℝ) (h1 : 0 < m1) (h2 : 0 < m2)
    (hns : m1 * m2 / (m1 + m2) ^ 2 ≠ Spec.etaSingular) :
    lambda_tildes_to_lambdas (lambdas_to_lambda_tildes l1 l2 m1 m2).1
      (lambdas_to_lambda_tildes l1 l2 m1 m2).2 m1 m2 = (l1, l2) := by
  obtain ⟨he0, he1⟩ := eta_of_masses h1 h2
  simp only [lambda_tildes_to_lambdas, lambdas_to_lambda_tildes, ms_to_Mc_eta, rpow_half]
  set eta := m1 * m2 / (m1 + m2) ^ 2
  have hdet := lambda_det (sq_sqrt_eta he1)
  have hne : 4 / 1319 * eta ^ 4 * (249158 * eta - 4823) ≠ 0 := by
    refine mul_ne_zero (by positivity) ?_
    intro h; apply hns; unfold Spec.etaSingular; linarith
  have hdet' := hdet
  rw [← neg_inj, neg_sub] at hdet'
  rw [← hdet] at hne hdet'
  refine Prod.ext ?_ ?_
  · simp only
    rw [div_eq_iff hne]; ring
  · simp only
    rw [hdet', div_eq_iff (neg_ne_zero.2 hne)]; ring

theorem C05_roundtrip_inverse (lt dlt m1 m2 : ℝ) (h1 : 0 < m1) (h2 : 0 < m2)
    (hns : m1 * m2 / (m1 + m2) ^ 2 ≠ Spec.etaSingular) :
    lambdas_to_lambda_tildes (lambda_tildes_to_lambdas lt dlt m1 m2).1
      (lambda_tildes_to_lambdas lt dlt m1 m2).2 m1 m2 = (lt, dlt) := by
  obtain ⟨he0, he1⟩ := eta_of_masses h1 h2
  simp only [lambda_tildes_to_lambdas, lambdas_to_lambda_tildes, ms_to_Mc_eta, rpow_half]
  set eta := m1 * m2 / (m1 + m2) ^ 2
  have hdet := lambda_det (sq_sqrt_eta he1)
  set c1 := 1 + 7 * eta - 31 * eta ^ 2
  set c2 := √(1 - 4 * eta) * (1 + 9 * eta - 11 * eta ^ 2)
  set c3 := √(1 - 4 * eta) * (1 - 13272 / 1319 * eta + 8944 / 1319 * eta ^ 2)
  set c4 := 1 - 15910 / 1319 * eta + 32850 / 1319 * eta ^ 2 + 3380 / 1319 * eta ^ 3
  have hne : 4 / 1319 * eta ^ 4 * (249158 * eta - 4823) ≠ 0 := by
    refine mul_ne_zero (by positivity) ?_
    intro h; apply hns; unfold Spec.etaSingular; linarith
  rw [← hdet] at hne
  have hneg : (c1 - c2) * (c3 + c4) - (c1 + c2) * (c3 - c4)
      = -((c1 + c2) * (c3 - c4) - (c1 - c2) * (c3 + c4)) := by ring
  rw [hneg]
  refine Prod.ext ?_ ?_
  · simp only
    rw [div_neg, ← sub_eq_add_neg, ← sub_div, sub_neg_eq_add, ← add_div]
    rw [mul_div_assoc', mul_div_assoc', ← add_div, mul_div_assoc', div_eq_iff hne]
    ring
  · simp only
    rw [div_neg, ← sub_eq_add_neg, ← sub_div, sub_neg_eq_add, ← add_div]
    rw [mul_div_assoc', mul_div_assoc', ← add_div, mul_div_assoc', div_eq_iff hne]
    ring

/-- The full claim (for *all* positive masses) is false: at η = 4823/249158 two different tidal pairs have the
    same tilde pair, so no inverse exists, and the denominator used by the code vanishes. -/
theorem C05_singular (m1 m2 : ℝ) (h1 : 0 < m1) (h2 : 0 < m2)
    (hs : m1 * m2 / (m1 + m2) ^ 2 = Spec.etaSingular) :
    ∃ l1 l2 : ℝ, (l1, l2) ≠ (0, 0) ∧
      lambdas_to_lambda_tildes l1 l2 m1 m2 = lambdas_to_lambda_tildes 0 0 m1 m2 := by
  obtain ⟨he0, he1⟩ := eta_of_masses h1 h2
  have hsq := sq_sqrt_eta he1
  simp only [lambdas_to_lambda_tildes, ms_to_Mc_eta, rpow_half]
  set eta := m1 * m2 / (m1 + m2) ^ 2
  set s := √(1 - 4 * eta)
  have hdet := lambda_det hsq
  have hz : 4 / 1319 * eta ^ 4 * (249158 * eta - 4823) = 0 := by
    rw [hs]; unfold Spec.etaSingular; norm_num
  rw [hz] at hdet
  have hc1 : 0 < 1 + 7 * eta - 31 * eta ^ 2 := by rw [hs]; unfold Spec.etaSingular; norm_num
  refine ⟨-(1 + 7 * eta - 31 * eta ^ 2 - s * (1 + 9 * eta - 11 * eta ^ 2)),
    (1 + 7 * eta - 31 * eta ^ 2 + s * (1 + 9 * eta - 11 * eta ^ 2)), ?_, ?_⟩
  · intro h
    rw [Prod.mk.injEq] at h
    linarith [h.1, h.2]
  · refine Prod.ext ?_ ?_
    · simp only; ring
    · simp only; linear_combination (1 / 2) * hdet

/-- such masses exist (ratio about 50:1) -/
example : ∃ m1 m2 : ℝ, 0 < m1 ∧ 0 < m2 ∧ m1 * m2 / (m1 + m2) ^ 2 = Spec.etaSingular := by
  have h0 : (0 : ℝ) < Spec.etaSingular := by unfold Spec.etaSingular; norm_num
  have h1 : Spec.etaSingular ≤ (1 : ℝ) / 4 := by unfold Spec.etaSingular; norm_num
  have h := C02_masses_ordered 1 _ one_pos h0 h1
  refine ⟨(Mc_eta_to_ms 1 Spec.etaSingular).1, (Mc_eta_to_ms 1 Spec.etaSingular).2,
    lt_of_lt_of_le h.1 h.2.1, h.1, ?_⟩
  exact congrArg Prod.snd (C01_roundtrip_Mc_eta 1 _ one_pos h0 h1)

/-- and ordinary neutron-star masses are not singular -/
example : (0 : ℝ) < 1.4 ∧ (0 : ℝ) < 1.3 ∧ (1.4 * 1.3 / (1.4 + 1.3) ^ 2 : ℝ) ≠ Spec.etaSingular := by
  unfold Spec.etaSingular; norm_num

/-- For every binary with mass ratio at most 40 the round trip applies. -/
theorem C05_regular_of_ratio (m1 m2 : ℝ) (h1 : 0 < m1) (h2 : 0 < m2) (h : m1 ≤ 40 * m2) (h' : m2 ≤ 40 * m1) :
    m1 * m2 / (m1 + m2) ^ 2 ≠ Spec.etaSingular := by
  unfold Spec.etaSingular
  apply ne_of_gt
  rw [lt_div_iff₀ (by positivity)]
  nlinarith [mul_nonneg (sub_nonneg.2 h) (sub_nonneg.2 h'), mul_pos h1 h2]

/-! ### C06 q variants -/

theorem C06_from_q_forward (l1 l2 m1 m2 : ℝ) (h1 : 0 < m1) (h2 : 0 < m2) :
    lambdas_to_lambda_tildes_from_q l1 l2 (m2 / m1) = lambdas_to_lambda_tildes l1 l2 m1 m2 ∧
    lambdas_to_lambda_tildes_from_q l1 l2 (m1 / m2) = lambdas_to_lambda_tildes l1 l2 m1 m2 := by
  have e : m1 / m2 / (1 + m1 / m2) ^ 2 = m1 * m2 / (m1 + m2) ^ 2 := by
    rw [eta_q h2 h1, mul_comm, add_comm]
  constructor
  · simp only [lambdas_to_lambda_tildes_from_q, lambdas_to_lambda_tildes, ms_to_Mc_eta, eta_q h1 h2]
  · simp only [lambdas_to_lambda_tildes_from_q, lambdas_to_lambda_tildes, ms_to_Mc_eta, e]

theorem C06_from_q_backward (lt dlt m1 m2 : ℝ) (h1 : 0 < m1) (h2 : 0 < m2) :
    lambda_tildes_to_lambdas_from_q lt dlt (m2 / m1) = lambda_tildes_to_lambdas lt dlt m1 m2 ∧
    lambda_tildes_to_lambdas_from_q lt dlt (m1 / m2) = lambda_tildes_to_lambdas lt dlt m1 m2 := by
  have e : m1 / m2 / (1 + m1 / m2) ^ 2 = m1 * m2 / (m1 + m2) ^ 2 := by
    rw [eta_q h2 h1, mul_comm, add_comm]
  constructor
  · simp only [lambda_tildes_to_lambdas_from_q, lambda_tildes_to_lambdas, ms_to_Mc_eta, eta_q h1 h2]
  · simp only [lambda_tildes_to_lambdas_from_q, lambda_tildes_to_lambdas, ms_to_Mc_eta, e]

/-! ### C07 hidden ordering precondition -/

theorem C07_mass_exchange_invariant (l1 l2 m1 m2 : ℝ) :
    lambdas_to_lambda_tildes l1 l2 m1 m2 = lambdas_to_lambda_tildes l1 l2 m2 m1 := by
  simp only [lambdas_to_lambda_tildes, C03_exchange m1 m2]

/-- With the lighter body first, the returned Λ̃ is wrong for every pair of distinct deformabilities. -/
theorem C07_wrong_if_unordered (l1 l2 m1 m2 : ℝ) (h1 : 0 < m1) (h12 : m1 < m2) (hl : l1 ≠ l2) :
    (lambdas_to_lambda_tildes l1 l2 m1 m2).1 ≠ Spec.lambdaTilde m1 l1 m2 l2 := by
  have h2 : 0 < m2 := h1.trans h12
  rw [C07_mass_exchange_invariant, C04_lambda_tilde_physical l1 l2 m2 m1 h1 h12.le]
  intro h
  simp only [Spec.lambdaTilde] at h
  rw [add_comm m2 m1] at h
  have hM : (0 : ℝ) < (m1 + m2) ^ 5 := by positivity
  rw [div_eq_div_iff hM.ne' hM.ne'] at h
  have h3 := mul_right_cancel₀ hM.ne' h
  have h4 : ((m2 + 12 * m1) * m2 ^ 4 - (m1 + 12 * m2) * m1 ^ 4) * (l1 - l2) = 0 := by
    linear_combination (13 / 16 : ℝ) * h3
  have h5 : 0 < (m2 + 12 * m1) * m2 ^ 4 - (m1 + 12 * m2) * m1 ^ 4 := by
    obtain ⟨d, rfl⟩ : ∃ d, m2 = m1 + d := ⟨m2 - m1, by ring⟩
    have hd : 0 < d := by linarith
    ring_nf; positivity
  rcases mul_eq_zero.1 h4 with h | h
  · exact h5.ne' h
  · exact hl (by linarith)

example : ∃ l1 l2 m1 m2 : ℝ, 0 < m1 ∧ m1 < m2 ∧ l1 ≠ l2 := ⟨400, 800, 1.3, 1.4, by norm_num⟩

/-! ### C08 effective spin -/

theorem C08_between (m1 m2 chi1 chi2 : ℝ) (h1 : 0 < m1) (h2 : 0 < m2) :
    min chi1 chi2 ≤ get_chi_eff m1 m2 chi1 chi2 ∧ get_chi_eff m1 m2 chi1 chi2 ≤ max chi1 chi2 := by
  have hM : 0 < m1 + m2 := by positivity
  simp only [get_chi_eff]
  constructor
  · rw [le_div_iff₀ hM]
    nlinarith [min_le_left chi1 chi2, min_le_right chi1 chi2]
  · rw [div_le_iff₀ hM]
    nlinarith [le_max_left chi1 chi2, le_max_right chi1 chi2]

theorem C08_bounded (m1 m2 chi1 chi2 : ℝ) (h1 : 0 < m1) (h2 : 0 < m2) (hc1 : |chi1| ≤ 1) (hc2 : |chi2| ≤ 1) :
    |get_chi_eff m1 m2 chi1 chi2| ≤ 1 := by
  obtain ⟨ha, hb⟩ := C08_between m1 m2 chi1 chi2 h1 h2
  rw [abs_le] at *
  exact ⟨le_trans (le_min hc1.1 hc2.1) ha, le_trans hb (max_le hc1.2 hc2.2)⟩

theorem C08_equal_spins (m1 m2 chi : ℝ) (h1 : 0 < m1) (h2 : 0 < m2) : get_chi_eff m1 m2 chi chi = chi := by
  simp only [get_chi_eff]; field_simp

theorem C08_exchange (m1 m2 chi1 chi2 : ℝ) : get_chi_eff m1 m2 chi1 chi2 = get_chi_eff m2 m1 chi2 chi1 := by
  simp only [get_chi_eff, add_comm]

theorem C08_scale (m1 m2 chi1 chi2 k : ℝ) (h1 : 0 < m1) (h2 : 0 < m2) (hk : 0 < k) :
    get_chi_eff (k * m1) (k * m2) chi1 chi2 = get_chi_eff m1 m2 chi1 chi2 := by
  simp only [get_chi_eff]; field_simp

/-- the weights are the mass fractions: with only body 1 spinning the result is χ1·m1/(m1+m2) -/
theorem C08_weight (m1 m2 chi1 chi2 : ℝ) (h1 : 0 < m1) (h2 : 0 < m2) :
    get_chi_eff m1 m2 chi1 chi2 = m1 / (m1 + m2) * chi1 + (1 - m1 / (m1 + m2)) * chi2 := by
  simp only [get_chi_eff]; field_simp; ring

/-! ### C09 ISCO frequency (agreement with the waveform modules is in Props/Isco.lean) -/

theorem C09_formula (m : ℝ) (hm : 0 < m) :
    get_f_isco m * ((6 : ℝ) ^ ((3 : ℝ) / 2) * π * (G * m / C ^ 3)) = 1 := by
  have := G_pos.ne'; have := C_pos.ne'
  have h6 : (6 : ℝ) ^ ((3 : ℝ) / 2) ≠ 0 := (rpow_pos_of_pos (by norm_num) _).ne'
  simp only [get_f_isco]; field_simp

theorem C09_pos (m : ℝ) (hm : 0 < m) : 0 < get_f_isco m := by
  have := G_pos; have := C_pos
  simp only [get_f_isco]; positivity

theorem C09_scaling (m k : ℝ) (hm : 0 < m) (hk : 0 < k) : get_f_isco (k * m) = get_f_isco m / k := by
  have := G_pos.ne'; have := C_pos.ne'
  have h6 : (6 : ℝ) ^ ((3 : ℝ) / 2) ≠ 0 := (rpow_pos_of_pos (by norm_num) _).ne'
  simp only [get_f_isco]; field_simp

theorem C09_strictAnti (m m' : ℝ) (hm : 0 < m) (h : m < m') : get_f_isco m' < get_f_isco m := by
  have hk : 1 < m' / m := (one_lt_div hm).2 h
  have e := C09_scaling m (m' / m) hm (by linarith)
  rw [div_mul_cancel₀ _ hm.ne'] at e
  rw [e]
  exact div_lt_self (C09_pos m hm) hk

/-! ### C10, C11 samplers: `uniform` is an arbitrary generator obeying the contract of `jax.random.uniform` -/

theorem C10_rows_ordered (r1 r2 : ℝ × ℝ) (uniform) (n : ℕ)
    (hu : IsUniformDraw (r1.1, r2.1) (r1.2, r2.2) n (uniform (r1.1, r2.1) (r1.2, r2.2) n)) :
    (get_m1_m2_sampler r1 r2 uniform n).length = n ∧
    (∀ r ∈ get_m1_m2_sampler r1 r2 uniform n, r.2 ≤ r.1) ∧
    List.Forall₂ (fun (out raw : ℝ × ℝ) => out = raw ∨ out = raw.swap)
      (get_m1_m2_sampler r1 r2 uniform n) (uniform (r1.1, r2.1) (r1.2, r2.2) n) := by
  simp only [get_m1_m2_sampler]
  refine ⟨by rw [List.length_map]; exact hu.1, ?_, ?_⟩
  · intro r hr
    obtain ⟨a, _, rfl⟩ := List.mem_map.1 hr
    exact min_le_max
  · rw [List.forall₂_map_left_iff]
    refine List.forall₂_same.2 fun r _ => ?_
    rcases le_total r.1 r.2 with h | h
    · right; rw [max_eq_right h, min_eq_left h]; rfl
    · left; rw [max_eq_left h, min_eq_right h]

/-- equal ranges: both outputs stay in the range -/
theorem C10_in_range (lo hi : ℝ) (hlh : lo ≤ hi) (uniform) (n : ℕ)
    (hu : IsUniformDraw (lo, lo) (hi, hi) n (uniform (lo, lo) (hi, hi) n)) :
    ∀ r ∈ get_m1_m2_sampler (lo, hi) (lo, hi) uniform n, r.1 ∈ Set.Icc lo hi ∧ r.2 ∈ Set.Icc lo hi := by
  simp only [get_m1_m2_sampler]
  intro r hr
  obtain ⟨a, ha, rfl⟩ := List.mem_map.1 hr
  obtain ⟨⟨h1, h2⟩, h3, h4⟩ := hu.2 a ha
  simp only at h1 h2 h3 h4
  have h2' : a.1 ≤ hi := by rcases h2 with h | h <;> linarith
  have h4' : a.2 ≤ hi := by rcases h4 with h | h <;> linarith
  exact ⟨⟨le_max_of_le_left h1, max_le h2' h4'⟩, le_min h1 h3, min_le_of_left_le h2'⟩

/-- different ranges: for m1_range = (1,2), m2_range = (3,4) *every* draw returns a first mass outside m1_range. -/
theorem C10_can_leave_range (uniform) (n : ℕ)
    (hu : IsUniformDraw (1, 3) (2, 4) n (uniform (1, 3) (2, 4) n)) :
    ∀ r ∈ get_m1_m2_sampler (1, 2) (3, 4) uniform n, r.1 ∉ Set.Icc (1 : ℝ) 2 := by
  simp only [get_m1_m2_sampler]
  intro r hr
  obtain ⟨a, ha, rfl⟩ := List.mem_map.1 hr
  obtain ⟨_, h3, _⟩ := hu.2 a ha
  simp only at h3
  intro h
  have := le_trans (le_max_right a.1 a.2) h.2
  linarith

/-- in general the outputs lie in the hull of the two ranges -/
theorem C10_in_hull (r1 r2 : ℝ × ℝ) (h1 : r1.1 ≤ r1.2) (h2 : r2.1 ≤ r2.2) (uniform) (n : ℕ)
    (hu : IsUniformDraw (r1.1, r2.1) (r1.2, r2.2) n (uniform (r1.1, r2.1) (r1.2, r2.2) n)) :
    ∀ r ∈ get_m1_m2_sampler r1 r2 uniform n,
      r.1 ∈ Set.Icc (max r1.1 r2.1) (max r1.2 r2.2) ∧ r.2 ∈ Set.Icc (min r1.1 r2.1) (min r1.2 r2.2) := by
  simp only [get_m1_m2_sampler]
  intro r hr
  obtain ⟨a, ha, rfl⟩ := List.mem_map.1 hr
  obtain ⟨⟨ha1, ha2⟩, ha3, ha4⟩ := hu.2 a ha
  simp only at ha1 ha2 ha3 ha4
  have h2' : a.1 ≤ r1.2 := by rcases ha2 with h | h <;> linarith
  have h4' : a.2 ≤ r2.2 := by rcases ha4 with h | h <;> linarith
  exact ⟨⟨max_le_max ha1 ha3, max_le_max h2' h4'⟩, min_le_min ha1 ha3, min_le_min h2' h4'⟩

/-- witness: a draw satisfying the contract -/
example : IsUniformDraw (1, 3) (2, 4) 2 [(1.5, 3), (1, 3.9)] := by
  refine ⟨rfl, ?_⟩
  intro r hr
  simp only [List.mem_cons, List.not_mem_nil, or_false] at hr
  rcases hr with rfl | rfl <;> norm_num

theorem C11_in_range (r1 r2 : ℝ × ℝ) (h1 : r1.1 ≤ r1.2) (h2 : r2.1 ≤ r2.2) (uniform) (n : ℕ)
    (hu : IsUniformDraw (r1.1, r2.1) (r1.2, r2.2) n (uniform (r1.1, r2.1) (r1.2, r2.2) n)) :
    (get_M_eta_sampler r1 r2 uniform n).length = n ∧
    ∀ r ∈ get_M_eta_sampler r1 r2 uniform n, r.1 ∈ Set.Icc r1.1 r1.2 ∧ r.2 ∈ Set.Icc r2.1 r2.2 := by
  simp only [get_M_eta_sampler]
  refine ⟨hu.1, ?_⟩
  intro a ha
  obtain ⟨⟨ha1, ha2⟩, ha3, ha4⟩ := hu.2 a ha
  simp only at ha1 ha2 ha3 ha4
  exact ⟨⟨ha1, by rcases ha2 with h | h <;> linarith⟩, ha3, by rcases ha4 with h | h <;> linarith⟩

end Ripple

/-
  Property C71 (ISCO radius and frequency of IMRPhenomX_utils) and the part of C09 comparing three ISCO frequencies.
-/
import Verif.Proofs.Isco
import Verif.Model.Conversions

namespace Ripple
open Real XAS

namespace Spec
/-- `r` (in units of the mass) is a marginally stable equatorial circular orbit of a Kerr black hole with signed
    dimensionless spin `a` (Bardeen, Press, Teukolsky 1972, eq. 2.20). -/
def MarginallyStable (a r : ℝ) : Prop := 0 < r ∧ r ^ 2 - 6 * r + 8 * a * sqrt r - 3 * a ^ 2 = 0
end Spec

/-- for every final spin the radius solves the Kerr equation -/
theorem C71_kerr (a : ℝ) (h1 : -1 ≤ a) (h2 : a ≤ 1) : Spec.MarginallyStable a (rISCOof a) := by
  obtain ⟨u, hr, hu, -, -, hq⟩ := isco_exists h1 h2
  refine ⟨by rw [hr]; positivity, ?_⟩
  rw [hr, sqrt_sq (by linarith)]
  linear_combination hq

/-- and it is the only solution -/
theorem C71_kerr_unique (a r : ℝ) (h1 : -1 ≤ a) (h2 : a ≤ 1) (h : Spec.MarginallyStable a r) : r = rISCOof a := by
  obtain ⟨u, hr, hu1, -, hau, -⟩ := isco_exists h1 h2
  obtain ⟨hr0, hq⟩ := h
  have hs := sq_sqrt hr0.le
  obtain ⟨hv1, -, hav⟩ := isco_range (u := sqrt r) h1 h2 (sqrt_pos.2 hr0) (by
    have : sqrt r ^ 4 = r ^ 2 := by rw [show 4 = 2 * 2 by norm_num, pow_mul, hs]
    rw [this, hs]; exact hq)
  have : sqrt r = u := iscoSpin_strictAnti.injOn (Set.mem_Ici.2 hv1) (Set.mem_Ici.2 hu1) (by rw [← hau, ← hav])
  rw [hr, ← this, hs]

theorem C71_range (a : ℝ) (h1 : -1 ≤ a) (h2 : a ≤ 1) : 1 ≤ rISCOof a ∧ rISCOof a ≤ 9 := by
  obtain ⟨u, hr, hu1, hu3, -⟩ := isco_exists h1 h2
  rw [hr]; constructor <;> nlinarith

lemma kerr_schwarzschild : Spec.MarginallyStable 0 6 := ⟨by norm_num, by norm_num⟩
lemma kerr_prograde : Spec.MarginallyStable 1 1 := ⟨by norm_num, by norm_num⟩
lemma kerr_retrograde : Spec.MarginallyStable (-1) 9 :=
  ⟨by norm_num, by rw [show (9 : ℝ) = 3 ^ 2 by norm_num, sqrt_sq (by norm_num)]; norm_num⟩

theorem C71_special_values : rISCOof 0 = 6 ∧ rISCOof 1 = 1 ∧ rISCOof (-1) = 9 :=
  ⟨(C71_kerr_unique 0 6 (by norm_num) (by norm_num) kerr_schwarzschild).symm,
   (C71_kerr_unique 1 1 (by norm_num) (by norm_num) kerr_prograde).symm,
   (C71_kerr_unique (-1) 9 (by norm_num) (by norm_num) kerr_retrograde).symm⟩

theorem C71_strictAnti (a b : ℝ) (h1 : -1 ≤ a) (h2 : b ≤ 1) (h : a < b) : rISCOof b < rISCOof a := by
  obtain ⟨u, hr, hu1, -, hau, -⟩ := isco_exists h1 (h.le.trans h2)
  obtain ⟨v, hs, hv1, -, hbv, -⟩ := isco_exists (h1.trans h.le) h2
  have : v < u := (iscoSpin_strictAnti.lt_iff_gt (Set.mem_Ici.2 hu1) (Set.mem_Ici.2 hv1)).1 (by rw [← hau, ← hbv]; exact h)
  rw [hr, hs]
  exact pow_lt_pow_left₀ this (by linarith) two_ne_zero

/-- the clamp of Z1 at 3 never acts -/
theorem C71_guard_inactive (a : ℝ) (h1 : -1 ≤ a) (h2 : a ≤ 1) :
    1 + Jnp.cbrt (1 - a * a) * (Jnp.cbrt (1 + a) + Jnp.cbrt (1 - a)) ≤ 3 := by
  have := (iscoS_spec h1 h2).2.1
  unfold iscoS at this
  linarith

/-- the ISCO frequency is the Kerr orbital frequency at that radius over π, the denominator does not vanish -/
theorem C71_frequency (a : ℝ) (h1 : -1 ≤ a) (h2 : a ≤ 1) :
    0 < rISCOof a ^ ((3 : ℝ) / 2) + a ∧ fISCOof a = 1 / (π * (rISCOof a ^ ((3 : ℝ) / 2) + a)) := by
  obtain ⟨u, hr, hu1, hu3, hau, -⟩ := isco_exists h1 h2
  have e : rISCOof a ^ ((3 : ℝ) / 2) = u ^ 3 := by
    rw [hr, ← Real.rpow_natCast, ← Real.rpow_natCast, ← Real.rpow_mul (by linarith)]; norm_num
  have hm := iscoOmega_strictMono.monotoneOn (Set.mem_Ici.2 (le_refl 1)) (Set.mem_Ici.2 hu1) hu1
  have e1 : iscoSpin 1 = 1 := by unfold iscoSpin; norm_num
  simp only [e1, ← hau] at hm
  rw [e]
  refine ⟨by linarith, ?_⟩
  rw [fISCO_eq hr (by linarith), div_div, mul_comm]

theorem C71_frequency_range (a : ℝ) (h1 : -1 ≤ a) (h2 : a ≤ 1) :
    1 / (26 * π) ≤ fISCOof a ∧ fISCOof a ≤ 1 / (2 * π) := by
  obtain ⟨u, hr, hu1, hu3, hau, -⟩ := isco_exists h1 h2
  have hm := iscoOmega_strictMono.monotoneOn (Set.mem_Ici.2 (le_refl 1)) (Set.mem_Ici.2 hu1) hu1
  have hm3 := iscoOmega_strictMono.monotoneOn (Set.mem_Ici.2 hu1) (Set.mem_Ici.2 (by norm_num : (1 : ℝ) ≤ 3)) hu3
  have e1 : iscoSpin 1 = 1 := by unfold iscoSpin; norm_num
  have e3 : iscoSpin 3 = -1 := by
    unfold iscoSpin
    rw [show (3 : ℝ) * 3 ^ 2 - 2 = 5 ^ 2 by norm_num, sqrt_sq (by norm_num)]; norm_num
  simp only [e1, e3, ← hau] at hm hm3
  norm_num at hm hm3
  have hpi := pi_pos
  rw [fISCO_eq hr (by linarith), div_div]
  constructor
  · exact one_div_le_one_div_of_le (by positivity) (by gcongr)
  · exact one_div_le_one_div_of_le (by positivity) (by gcongr)

theorem C71_frequency_strictMono (a b : ℝ) (h1 : -1 ≤ a) (h2 : b ≤ 1) (h : a < b) : fISCOof a < fISCOof b := by
  obtain ⟨u, hr, hu1, -, hau, -⟩ := isco_exists h1 (h.le.trans h2)
  obtain ⟨v, hs, hv1, -, hbv, -⟩ := isco_exists (h1.trans h.le) h2
  have hvu : v < u := (iscoSpin_strictAnti.lt_iff_gt (Set.mem_Ici.2 hu1) (Set.mem_Ici.2 hv1)).1 (by rw [← hau, ← hbv]; exact h)
  have hm := iscoOmega_strictMono (Set.mem_Ici.2 hv1) (Set.mem_Ici.2 hu1) hvu
  have hm1 := iscoOmega_strictMono.monotoneOn (Set.mem_Ici.2 (le_refl 1)) (Set.mem_Ici.2 hv1) hv1
  have e1 : iscoSpin 1 = 1 := by unfold iscoSpin; norm_num
  simp only [e1, ← hau, ← hbv] at hm hm1
  have hpi := pi_pos
  rw [fISCO_eq hr (by linarith), fISCO_eq hs (by linarith)]
  exact div_lt_div_of_pos_right (one_div_lt_one_div_of_lt (by linarith) hm) hpi

/-! ### C09: three ISCO frequencies -/

/-- `get_f_isco` of the total mass in kilograms, the TaylorF2 ISCO frequency and the IMRPhenomXAS one at zero final spin
    are the same number. -/
theorem C09_three_agree (m1 m2 : ℝ) (h1 : 0 < m1) (h2 : 0 < m2) :
    get_f_isco ((m1 + m2) * MSUN) = TaylorF2.fISCO m1 m2 ∧
    get_f_isco ((m1 + m2) * MSUN) * ((m1 + m2) * gt) = fISCOof 0 := by
  have h6 : (6 : ℝ) ^ ((3 : ℝ) / 2) = sqrt 6 ^ 3 := by
    rw [sqrt_eq_rpow, ← Real.rpow_natCast, ← Real.rpow_mul (by norm_num)]; norm_num
  have hs : 0 < sqrt 6 := sqrt_pos.2 (by norm_num)
  have hg := gt_pos
  have hG := G_pos
  have hC := C_pos
  have hM := MSUN_pos
  have hpi := pi_pos
  constructor
  · unfold get_f_isco TaylorF2.fISCO
    simp only [h6, PI, gt]
    field_simp
  · rw [fISCO_eq (a := 0) (u := sqrt 6) (by rw [C71_special_values.1, sq_sqrt (by norm_num)]) hs.le]
    unfold get_f_isco
    simp only [h6, gt]
    field_simp
    ring

end Ripple

/-
  Helper lemmas for C119: order of the transition frequencies, the amplitude above the peak, and the numbers of two binaries.
-/
import Verif.Proofs.ArrivalNum
import Verif.Props.Pv2Aligned
import Verif.Props.QNM

namespace Ripple
open PhenomD Filter Topology Set

lemma etaS_eq {Mc eta : ℝ} (chi1 chi2 : ℝ) (hMc : 0 < Mc) (he : 0 < eta) (he' : eta ≤ 1 / 4) : etaS (thetaOf Mc eta chi1 chi2) = eta := by
  have hrt := congrArg Prod.snd (C01_roundtrip_Mc_eta Mc eta hMc he he')
  change (Mc_eta_to_ms Mc eta).1 * (Mc_eta_to_ms Mc eta).2 / ((Mc_eta_to_ms Mc eta).1 + (Mc_eta_to_ms Mc eta).2) ^ 2 = eta at hrt
  obtain ⟨h2, h12, -⟩ := C02_masses_ordered Mc eta hMc he he'
  have h1 := lt_of_lt_of_le h2 h12
  have hg := gt_pos
  change (Mc_eta_to_ms Mc eta).1 * gt * ((Mc_eta_to_ms Mc eta).2 * gt) / ((Mc_eta_to_ms Mc eta).1 * gt + (Mc_eta_to_ms Mc eta).2 * gt) ^ 2
    = eta
  refine Eq.trans ?_ hrt
  change 0 < (Mc_eta_to_ms Mc eta).2 at h2
  change 0 < (Mc_eta_to_ms Mc eta).1 at h1
  generalize (Mc_eta_to_ms Mc eta).1 = a at *
  generalize (Mc_eta_to_ms Mc eta).2 = b at *
  have : 0 < a + b := by linarith
  rw [show a * gt + b * gt = (a + b) * gt by ring]
  field_simp

lemma tf_order {q : QNM} (hq : q.Shipped) {theta : Theta} (h : theta.Physical) :
    0 < (tfOf q theta).f1 ∧ (tfOf q theta).f1 < (tfOf q theta).f2 ∧ (tfOf q theta).f2 < (tfOf q theta).f4 ∧
      (tfOf q theta).f1 * Ms theta = 0.018 ∧ (tfOf q theta).f2 * Ms theta = (tfOf q theta).f_RD * Ms theta / 2 := by
  obtain ⟨y, z, w, y0, y1, z0, z1, w0, w1, eR, eD⟩ := fRD_fdamp_range hq h
  obtain ⟨g1, g2, g3, g3'⟩ := coeffs_range h
  have hg := gt_pos
  have hM : 0 < Ms theta := by have := h.m1_pos; have := h.m2_pos; unfold Ms; positivity
  have e1 : (tfOf q theta).f1 = 0.018 / Ms theta := by rw [← Ms_eq]; rfl
  have e2 : (tfOf q theta).f2 = 0.5 * (y * w / Ms theta) := by rw [← eR]; rfl
  have e3 : (tfOf q theta).f_RD = y * w / Ms theta := eR
  have hq4 : y * w / Ms theta - z * w / Ms theta * get_coeffs theta 6 ≤ (tfOf q theta).f4 := by
    have e4 : (tfOf q theta).f4 = if get_coeffs theta 5 ≥ 1 then
        |y * w / Ms theta + -(z * w / Ms theta) * get_coeffs theta 6 / get_coeffs theta 5|
      else |y * w / Ms theta + z * w / Ms theta * (-1 + Real.sqrt (1 - get_coeffs theta 5 ^ 2)) * get_coeffs theta 6
        / get_coeffs theta 5| := by rw [← eR, ← eD]; rfl
    rw [e4]
    have hz : 0 < z * w / Ms theta := by positivity
    have hc5 : 0 < get_coeffs theta 5 := by linarith
    have hc6 : 0 < get_coeffs theta 6 := by linarith
    generalize get_coeffs theta 5 = G2 at *
    generalize get_coeffs theta 6 = G3 at *
    generalize z * w / Ms theta = d at *
    split_ifs with hge
    · refine le_trans ?_ (le_abs_self _)
      have : d * G3 / G2 ≤ d * G3 := div_le_self (by positivity) hge
      have e : -d * G3 / G2 = -(d * G3 / G2) := by ring
      rw [e]; linarith
    · refine le_trans ?_ (le_abs_self _)
      push Not at hge
      -- `1 - √(1 - g²) ≤ g`
      have hs : 1 - G2 ≤ Real.sqrt (1 - G2 ^ 2) := Real.le_sqrt_of_sq_le (by nlinarith)
      have : d * G3 * ((1 - Real.sqrt (1 - G2 ^ 2)) / G2) ≤ d * G3 * 1 :=
        mul_le_mul_of_nonneg_left ((div_le_one hc5).2 (by linarith)) (by positivity)
      have e : d * (-1 + Real.sqrt (1 - G2 ^ 2)) * G3 / G2 = -(d * G3 * ((1 - Real.sqrt (1 - G2 ^ 2)) / G2)) := by ring
      rw [e]; linarith
  refine ⟨by rw [e1]; positivity, ?_, ?_, by rw [e1]; field_simp, by rw [e2, e3]; ring⟩
  · rw [e1, e2, ← mul_div_assoc, div_lt_div_iff_of_pos_right hM]; nlinarith
  · refine lt_of_lt_of_le ?_ hq4
    rw [e2, show z * w / Ms theta * get_coeffs theta 6 = (z * w * get_coeffs theta 6) / Ms theta by ring, ← mul_div_assoc, ← sub_div,
      div_lt_div_iff_of_pos_right hM]
    have h1 : z * get_coeffs theta 6 ≤ 0.0145 * 1.5 := mul_le_mul z1 g3' (by linarith) (by norm_num)
    nlinarith

/-- the amplitude is positive from the peak on -/
lemma amp_top {q : QNM} (hq : q.Shipped) {theta : Theta} (h : theta.Physical) {D : ℝ} (hD : 0 < D) {f : ℝ}
    (h4 : (tfOf q theta).f4 ≤ f) (hc : f < fCut theta) : 0 < ampAt theta (get_coeffs theta) (tfOf q theta) D (fCut theta) f := by
  obtain ⟨a, b, -, -, d, g1, -, g3⟩ := C74_amplitude_regions_ordered q hq theta h
  change 0 < (tfOf q theta).f3 at a
  change (tfOf q theta).f3 < (tfOf q theta).f4 at b
  change 0 < (tfOf q theta).f_damp at d
  rcases h4.lt_or_eq with h4 | h4
  · exact lor_pos_amp h.m1_pos h.m2_pos d g1 g3 hD hc (a.trans (b.trans h4)) (b.trans h4) h4
  · have hg := gt_pos
    have m1 := h.m1_pos
    have m2 := h.m2_pos
    have hM : 0 < Ms theta := by unfold Ms; positivity
    have hf : 0 < f := by rw [← h4]; exact a.trans b
    have hmid : get_IIa_Amp (f * Ms theta) theta (get_coeffs theta) (tfOf q theta).f3 (tfOf q theta).f4 (tfOf q theta).f_RD
        (tfOf q theta).f_damp = get_IIb_Amp (f * Ms theta) theta (get_coeffs theta) (tfOf q theta).f_RD (tfOf q theta).f_damp := by
      rw [← h4]
      refine delta_value3 _ _ _ _ _ ?_ ?_ ?_
      all_goals
        rw [show theta.m1 * gt + theta.m2 * gt = Ms theta from rfl]
        intro hh; have := mul_right_cancel₀ hM.ne' hh; linarith
    have hb : 0 < get_IIb_Amp (f * Ms theta) theta (get_coeffs theta) (tfOf q theta).f_RD (tfOf q theta).f_damp := by
      have : 0 < (tfOf q theta).f_damp * (theta.m1 * gt + theta.m2 * gt) := mul_pos d hM
      unfold get_IIb_Amp
      simp only
      positivity
    unfold ampAt
    rw [hmid, ← h4, sub_self, Jnp.heaviside_neg (x := (tfOf q theta).f3 - (tfOf q theta).f4) (by linarith),
      Jnp.heaviside_pos (x := (tfOf q theta).f4 - (tfOf q theta).f3) (by linarith), Jnp.heaviside_zero,
      Jnp.heaviside_pos (x := fCut theta - (tfOf q theta).f4) (by linarith), h4]
    have h0 : 0 < PhenomD.get_Amp0 (f * Ms theta) (theta.m1 * gt * (theta.m2 * gt) / Ms theta ^ 2) := by
      have := PI_pos
      unfold PhenomD.get_Amp0
      positivity
    have hp := PI_pos
    have hm := m_per_Mpc_pos
    have hC := C_pos
    have hs : 0 < Real.sqrt (5 / (64 * PI)) := Real.sqrt_pos.2 (by positivity)
    refine div_pos (mul_pos (mul_pos (by positivity) ?_) (by positivity)) (by positivity)
    rw [mul_zero, zero_add, zero_mul, add_zero]
    positivity

lemma amp_diff {q : QNM} (hq : q.Shipped) {theta : Theta} (h : theta.Physical) {D : ℝ} (hD : 0 < D) {f : ℝ} (h0 : 0 < f)
    (hc : f < fCut theta) : DifferentiableAt ℝ (ampAt theta (get_coeffs theta) (tfOf q theta) D (fCut theta)) f := by
  obtain ⟨A, cA, hA⟩ := C29_amplitude_C1_physical q hq theta h D hD
  have hd := (cA.contDiffAt (Ioi_mem_nhds h0)).differentiableAt (by norm_num)
  refine hd.congr_of_eventuallyEq ?_
  filter_upwards [gt_mem_nhds hc] with x hx
  have := hA [x] (by intro y hy; rw [List.mem_singleton] at hy; rw [hy]; exact hx)
  rw [Amp_eq, ← fCut_eq, cutThr_uncut (by simp) (by simpa using hx)] at this
  simpa [tfOf] using this

/-- mass fractions from the symmetric mass ratio -/
lemma fractions {Mc eta X : ℝ} (hMc : 0 < Mc) (he : 0 < eta) (he' : eta ≤ 1 / 4) (hX : 1 / 2 ≤ X) (e : X * (1 - X) = eta) (chi1 chi2 : ℝ) :
    (thetaOf Mc eta chi1 chi2).m1 * gt / ((thetaOf Mc eta chi1 chi2).m1 * gt + (thetaOf Mc eta chi1 chi2).m2 * gt) = X ∧
    (thetaOf Mc eta chi1 chi2).m2 * gt / ((thetaOf Mc eta chi1 chi2).m1 * gt + (thetaOf Mc eta chi1 chi2).m2 * gt) = 1 - X := by
  have hs : etaS (thetaOf Mc eta chi1 chi2) = eta := etaS_eq chi1 chi2 hMc he he'
  obtain ⟨h2, h12, -⟩ := C02_masses_ordered Mc eta hMc he he'
  change 0 < (thetaOf Mc eta chi1 chi2).m2 at h2
  change (thetaOf Mc eta chi1 chi2).m2 ≤ (thetaOf Mc eta chi1 chi2).m1 at h12
  have hg := gt_pos
  unfold etaS Ms at hs
  have a : 0 < (thetaOf Mc eta chi1 chi2).m2 * gt := mul_pos h2 hg
  have b : (thetaOf Mc eta chi1 chi2).m2 * gt ≤ (thetaOf Mc eta chi1 chi2).m1 * gt := mul_le_mul_of_nonneg_right h12 hg.le
  generalize (thetaOf Mc eta chi1 chi2).m1 * gt = x at *
  generalize (thetaOf Mc eta chi1 chi2).m2 * gt = y at *
  have hs0 : 0 < x + y := by linarith
  have h1 : x / (x + y) + y / (x + y) = 1 := by field_simp
  have h2 : x / (x + y) * (y / (x + y)) = eta := by rw [← hs]; field_simp
  have h3 : y / (x + y) ≤ x / (x + y) := by gcongr
  generalize x / (x + y) = p at *
  generalize y / (x + y) = r at *
  have hr : r = 1 - p := by linarith
  subst hr
  have h4 : (p - X) * (p + X - 1) = 0 := by nlinarith
  rcases mul_eq_zero.1 h4 with h | h
  · have : p = X := by linarith
    subst this; exact ⟨rfl, rfl⟩
  · have : p = X := by linarith
    subst this; exact ⟨rfl, rfl⟩

open Pv2 in
lemma LplusS_pos_arr {m1 m2 chi1 chi2 f : ℝ} (h1 : 0 < m1) (h2 : 0 < m2) (hf : 0 < f) (hS : 0 ≤ m1 ^ 2 * chi1 + m2 ^ 2 * chi2) :
    0 < LplusS m1 m2 (0, 0, chi1) (0, 0, chi2) f := by
  have hv : 0 < vOf m1 m2 f := by
    have := gt_pos; have := Real.pi_pos; unfold vOf; positivity
  have heta : m1 * m2 / (m1 + m2) ^ 2 ≤ 1 / 4 := by
    rw [div_le_iff₀ (by positivity)]; nlinarith [sq_nonneg (m1 - m2)]
  have heta0 : 0 < m1 * m2 / (m1 + m2) ^ 2 := by positivity
  unfold LplusS orbitalL
  generalize m1 * m2 / (m1 + m2) ^ 2 = e at *
  generalize vOf m1 m2 f = v at *
  have a2 : 0 ≤ (27 / 8 - 19 * e / 8 - e ^ 2 / 24) * v ^ 4 := mul_nonneg (by nlinarith) (by positivity)
  have a1 : 0 ≤ (3 / 2 + e / 6) * v ^ 2 := by positivity
  have : 0 < 1 ^ 2 * e / v * (1 + (3 / 2 + e / 6) * v ^ 2 + (27 / 8 - 19 * e / 8 - e ^ 2 / 24) * v ^ 4) :=
    mul_pos (by positivity) (by linarith)
  have b : (0 : ℝ) ≤ (m1 ^ 2 * chi1 + m2 ^ 2 * chi2) / (m1 + m2) ^ 2 := by positivity
  simp only [] at b ⊢
  linarith

/-- the peak frequency when the fitted width parameter is below one -/
lemma f4_of {q : QNM} {theta : Theta} (hM : 0 < Ms theta) (h : get_coeffs theta 5 < 1) :
    (tfOf q theta).f4 * Ms theta = |(tfOf q theta).f_RD * Ms theta + (tfOf q theta).f_damp * Ms theta *
      (-1 + Real.sqrt (1 - get_coeffs theta 5 ^ 2)) * get_coeffs theta 6 / get_coeffs theta 5| := by
  classical
  have e4 : (tfOf q theta).f4 = if get_coeffs theta 5 ≥ 1 then
      |(tfOf q theta).f_RD + -(tfOf q theta).f_damp * get_coeffs theta 6 / get_coeffs theta 5|
    else |(tfOf q theta).f_RD + (tfOf q theta).f_damp * (-1 + Real.sqrt (1 - get_coeffs theta 5 ^ 2)) * get_coeffs theta 6
      / get_coeffs theta 5| := rfl
  rw [e4, if_neg (not_le.2 h)]
  have habs : ∀ x : ℝ, |x| * Ms theta = |x * Ms theta| := fun x => by rw [abs_mul, abs_of_pos hM]
  rw [habs]
  congr 1
  ring

/-- numbers for mass ratio 2, spins 0.9 and -0.9 -/
lemma nums_I {eps : ℝ} (e0 : 0 ≤ eps) (e1 : eps < 4e-6) {Mc : ℝ} (hMc : 0 < Mc) :
    let th := thetaOf Mc (2 / 9) 0.9 (-0.9)
    let tf := tfOf (qnmTable eps) th
    let M := (th.m1 + th.m2) * gt
    let s := slopeRing (get_coeffs th) (2 / 9) (tf.f_RD * M) (tf.f_damp * M)
    let l := lag (get_inspiral_phase_coeffs th) (get_coeffs th) (2 / 9) (tf.f_RD * M) (tf.f_damp * M)
    0 < M ∧ 0 < tf.f4 ∧ (-249.8 < l ∧ l < -243.5) ∧ (37.6 < s (tf.f_RD * M) - s (tf.f4 * M) ∧ s (tf.f_RD * M) - s (tf.f4 * M) < 43.9) := by
  intro th tf M s l
  have hp : th.Physical := thetaOf_physical hMc (by norm_num) (by norm_num) (by norm_num [abs_le]) (by norm_num [abs_le])
  have hg := gt_pos
  have hM : M = Ms th := Ms_eq th
  have hM0 : 0 < M := by have := hp.m1_pos; have := hp.m2_pos; positivity
  have hes : etaS th = 2 / 9 := etaS_eq 0.9 (-0.9) hMc (by norm_num) (by norm_num)
  obtain ⟨hX1, hX2⟩ := fractions (X := 2 / 3) hMc (eta := 2 / 9) (by norm_num) (by norm_num) (by norm_num) (by norm_num) 0.9 (-0.9)
  have hX2 : th.m2 * gt / (th.m1 * gt + th.m2 * gt) = 1 / 3 := hX2.trans (by norm_num)
  obtain ⟨a, b, -⟩ := C74_amplitude_regions_ordered _ (C93_shipped e0 e1) th hp
  obtain ⟨hR, hd⟩ := rd_I e0 e1 th hes rfl rfl hX1 hX2 (hM ▸ hM0)
  change _ ≤ tf.f_RD * Ms th ∧ tf.f_RD * Ms th ≤ _ at hR
  change _ ≤ tf.f_damp * Ms th ∧ tf.f_damp * Ms th ≤ _ at hd
  have c5 := (c5_I th hes rfl rfl).2
  have e4 := f4_of (q := qnmTable eps) (theta := th) (hM ▸ hM0) (by linarith)
  rw [← hM] at hR hd
  obtain ⟨i1, i2⟩ := ins_I th hes rfl rfl hX1 hX2
  refine ⟨hM0, a.trans b, ?_, ?_⟩
  · obtain ⟨l1, l2⟩ := lag_I th hes rfl rfl hR hd ⟨i1.le, i2.le⟩
    exact ⟨lt_of_le_of_lt (by norm_num) l1, lt_of_lt_of_le l2 (by norm_num)⟩
  · have := peak_I th hes rfl rfl hR hd
    rw [hM] at this
    rw [← e4, ← hM] at this
    exact this

/-- numbers for equal masses without spins -/
lemma nums_II {eps : ℝ} (e0 : 0 ≤ eps) (e1 : eps < 4e-6) {Mc : ℝ} (hMc : 0 < Mc) :
    let th := thetaOf Mc (1 / 4) 0 0
    let tf := tfOf (qnmTable eps) th
    let M := (th.m1 + th.m2) * gt
    let s := slopeRing (get_coeffs th) (1 / 4) (tf.f_RD * M) (tf.f_damp * M)
    let l := lag (get_inspiral_phase_coeffs th) (get_coeffs th) (1 / 4) (tf.f_RD * M) (tf.f_damp * M)
    0 < M ∧ 0 < tf.f4 ∧ (-3.7 < l ∧ l < 2.6) ∧ (32.9 < s (tf.f_RD * M) - s (tf.f4 * M) ∧ s (tf.f_RD * M) - s (tf.f4 * M) < 39.2) := by
  intro th tf M s l
  have hp : th.Physical := thetaOf_physical hMc (by norm_num) (by norm_num) (by norm_num [abs_le]) (by norm_num [abs_le])
  have hg := gt_pos
  have hM : M = Ms th := Ms_eq th
  have hM0 : 0 < M := by have := hp.m1_pos; have := hp.m2_pos; positivity
  have hes : etaS th = 1 / 4 := etaS_eq 0 0 hMc (by norm_num) (by norm_num)
  obtain ⟨hX1, hX2⟩ := fractions (X := 1 / 2) hMc (eta := 1 / 4) (by norm_num) (by norm_num) (by norm_num) (by norm_num) 0 0
  have hX2 : th.m2 * gt / (th.m1 * gt + th.m2 * gt) = 1 / 2 := hX2.trans (by norm_num)
  obtain ⟨a, b, -⟩ := C74_amplitude_regions_ordered _ (C93_shipped e0 e1) th hp
  obtain ⟨hR, hd⟩ := rd_II e0 e1 th hes rfl rfl hX1 hX2 (hM ▸ hM0)
  change _ ≤ tf.f_RD * Ms th ∧ tf.f_RD * Ms th ≤ _ at hR
  change _ ≤ tf.f_damp * Ms th ∧ tf.f_damp * Ms th ≤ _ at hd
  have c5 := (c5_II th hes rfl rfl).2
  have e4 := f4_of (q := qnmTable eps) (theta := th) (hM ▸ hM0) (by linarith)
  rw [← hM] at hR hd
  obtain ⟨i1, i2⟩ := ins_II th hes rfl rfl hX1 hX2
  refine ⟨hM0, a.trans b, ?_, ?_⟩
  · obtain ⟨l1, l2⟩ := lag_II th hes rfl rfl hR hd ⟨i1.le, i2.le⟩
    exact ⟨lt_of_le_of_lt (by norm_num) l1, lt_of_lt_of_le l2 (by norm_num)⟩
  · have := peak_II th hes rfl rfl hR hd
    rw [hM] at this
    rw [← e4, ← hM] at this
    exact this

lemma over_two_pi {M x a b : ℝ} (hM : 0 < M) (h1 : a * 6.28318 < x) (h1' : a * 6.2832 < x) (h2 : x < b * 6.28318)
    (h2' : x < b * 6.2832) : a * M < M * x / (2 * Real.pi) ∧ M * x / (2 * Real.pi) < b * M := by
  have p1 : 3.14159 < Real.pi := lt_trans (by norm_num) Real.pi_gt_d6
  have p2 : Real.pi < 3.1416 := Real.pi_lt_d4
  have hpi := Real.pi_pos
  have e : M * x / (2 * Real.pi) = x / (2 * Real.pi) * M := by ring
  rw [e]
  constructor
  · refine mul_lt_mul_of_pos_right ?_ hM
    rw [lt_div_iff₀ (by positivity)]
    rcases le_total 0 a with h | h
    · have := mul_le_mul_of_nonneg_left p2.le h; linarith
    · have := mul_le_mul_of_nonpos_left p1.le h; linarith
  · refine mul_lt_mul_of_pos_right ?_ hM
    rw [div_lt_iff₀ (by positivity)]
    rcases le_total 0 b with h | h
    · have := mul_le_mul_of_nonneg_left p1.le h; linarith
    · have := mul_le_mul_of_nonpos_left p2.le h; linarith

end Ripple

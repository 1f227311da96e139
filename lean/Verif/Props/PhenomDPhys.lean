/-
  Property C74 (ordering of the amplitude regions for all physical binaries) and the unconditional forms of C25, C28, C29,
  C30 and C33 that follow from it, plus what PhenomD is on each of its frequency regions (C28, C29).
-/
import Verif.Proofs.PhenomDPhys
import Verif.Props.PhenomDGen

namespace Ripple
open PhenomD Set

/-! ### C74 -/

/-- For every physical binary the amplitude regions are ordered below the cutoff, and the ringdown fit coefficients are in
    the range in which the ringdown amplitude is positive. -/
theorem C74_amplitude_regions_ordered (q : QNM) (hq : q.Shipped) (theta : Theta) (h : theta.Physical) :
    let tf := get_transition_frequencies q theta (get_coeffs theta 5) (get_coeffs theta 6)
    0 < tf.f3 ∧ tf.f3 < tf.f4 ∧ tf.f4 ≤ tf.f_RD ∧ tf.f_RD < 0.2 / ((theta.m1 + theta.m2) * gt) ∧ 0 < tf.f_damp ∧
      0 < get_coeffs theta 4 ∧ 0 < get_coeffs theta 5 ∧ 0 < get_coeffs theta 6 := by
  intro tf
  obtain ⟨y, z, w, hr⟩ := fRD_fdamp_range hq h
  exact regions_ordered h tf rfl rfl hr

/-- witness: a physical binary -/
example : (⟨36, 29, 0.5, -0.3⟩ : Theta).Physical where
  m1_pos := by norm_num
  m2_pos := by norm_num
  chi1_le := by norm_num [abs_le]
  chi2_le := by norm_num [abs_le]

/-- the generators' masses are physical -/
lemma thetaOf_physical {Mc eta chi1 chi2 : ℝ} (hMc : 0 < Mc) (he : 0 < eta) (he' : eta ≤ 1 / 4) (h1 : |chi1| ≤ 1)
    (h2 : |chi2| ≤ 1) : (thetaOf Mc eta chi1 chi2).Physical := by
  have hm := C02_masses_ordered Mc eta hMc he he'
  exact ⟨lt_of_lt_of_le hm.1 hm.2.1, hm.1, h1, h2⟩

/-- C29 for the waveform's own coefficients: below the cutoff the PhenomD amplitude of every physical binary is one C¹
    function of frequency. -/
theorem C29_amplitude_C1_physical (q : QNM) (hq : q.Shipped) (theta : Theta) (h : theta.Physical) (D : ℝ) (hD : 0 < D) :
    ∃ A : ℝ → ℝ, ContDiffOn ℝ 1 A (Ioi 0) ∧
      ∀ grid : List ℝ, (∀ f ∈ grid, f < 0.2 / ((theta.m1 + theta.m2) * gt)) →
        Amp grid theta (get_coeffs theta)
          (get_transition_frequencies q theta (get_coeffs theta 5) (get_coeffs theta 6)) D = grid.map A := by
  obtain ⟨a, b, _, _, d, _, _, g⟩ := C74_amplitude_regions_ordered q hq theta h
  exact C29_amplitude_C1 theta h.m1_pos h.m2_pos _ _ d g.ne' a b D hD

/-- C30 wrap-around for every physical binary: on an increasing grid lying entirely above the cutoff, every sample except
    the last is non-zero although its frequency is above the cutoff. -/
theorem C30_wraps_physical (q : QNM) (hq : q.Shipped) (Mc eta chi1 chi2 D tc phic f_ref : ℝ)
    (hMc : 0 < Mc) (he : 0 < eta) (he' : eta ≤ 1 / 4) (h1 : |chi1| ≤ 1) (h2 : |chi2| ≤ 1) (hD : 0 < D)
    (grid : List ℝ) (hinc : Increasing grid) (hab : ∀ x ∈ grid, fCut (thetaOf Mc eta chi1 chi2) ≤ x)
    (j : ℕ) (hj : j + 1 < grid.length) :
    (gen_IMRPhenomD q grid [Mc, eta, chi1, chi2, D, tc, phic] f_ref).getD j 0 ≠ 0 ∧
    (gen_IMRPhenomD q grid [Mc, eta, chi1, chi2, D, tc, phic] f_ref).getD (grid.length - 1) 0 = 0 := by
  have hp := thetaOf_physical (chi1 := chi1) (chi2 := chi2) hMc he he' h1 h2
  obtain ⟨a, b, c, d, e, g1, g2, g3⟩ := C74_amplitude_regions_ordered q hq _ hp
  have hne : grid ≠ [] := by rintro rfl; simp at hj
  have hx := hab _ (Jnp.getD_mem (l := grid) (i := j) (by omega))
  have hlast := hab _ (Jnp.getD_mem (l := grid) (i := grid.length - 1) (by omega))
  have hc : 0 < fCut (thetaOf Mc eta chi1 chi2) := lt_trans (a.trans b) (lt_of_le_of_lt c d)
  have h4 : (tfOf q (thetaOf Mc eta chi1 chi2)).f4 < grid.getD j 0 :=
    lt_of_lt_of_le (lt_of_le_of_lt c d) hx
  exact C30_wraps q Mc eta chi1 chi2 D tc phic f_ref grid hinc hMc he he' hD g1 g3 e hlast
    (C30_wraps_when_above grid hne hinc _ hab) j hj (lt_of_lt_of_le hc hx) (lt_trans b h4) h4

/-- C30 zeroing for every physical binary: on an increasing grid that reaches the cutoff and has at least one point below
    it closer than the first point, every sample at or above the cutoff is zero. -/
theorem C30_zeroed_physical (q : QNM) (hq : q.Shipped) (Mc eta chi1 chi2 D tc phic f_ref : ℝ)
    (hMc : 0 < Mc) (he : 0 < eta) (he' : eta ≤ 1 / 4) (h1 : |chi1| ≤ 1) (h2 : |chi2| ≤ 1)
    (grid : List ℝ) (hinc : Increasing grid) (i : ℕ) (hi : IsClosest grid (fCut (thetaOf Mc eta chi1 chi2)) i)
    (h0 : 0 < i) (j : ℕ) (hj : j < grid.length) (hx : fCut (thetaOf Mc eta chi1 chi2) ≤ grid.getD j 0) :
    (gen_IMRPhenomD q grid [Mc, eta, chi1, chi2, D, tc, phic] f_ref).getD j 0 = 0 := by
  have hp := thetaOf_physical (chi1 := chi1) (chi2 := chi2) hMc he he' h1 h2
  obtain ⟨a, b, c, d, e, g1, g2, g3⟩ := C74_amplitude_regions_ordered q hq _ hp
  have h4 : (tfOf q (thetaOf Mc eta chi1 chi2)).f4 < grid.getD j 0 :=
    lt_of_lt_of_le (lt_of_le_of_lt c d) hx
  have hl : fCut (thetaOf Mc eta chi1 chi2) ≤ grid.getD (grid.length - 1) 0 := by
    rcases Nat.lt_or_ge j (grid.length - 1) with hlt | hge
    · exact hx.trans (hinc _ _ hlt (by omega)).le
    · rw [show grid.length - 1 = j by omega]; exact hx
  exact C30_zeroed q Mc eta chi1 chi2 D tc phic f_ref grid hinc i hl hi h0 j hj
    ((C30_lost_points grid hinc _ i hi h0).2.1 j hj hx) (lt_trans b h4) h4

/-- C33 for every physical binary: some in-band frequency has a non-zero sample on one grid and a zero one on another. -/
theorem C33_not_local_physical (q : QNM) (hq : q.Shipped) (Mc eta chi1 chi2 D tc phic f_ref : ℝ)
    (hMc : 0 < Mc) (he : 0 < eta) (he' : eta ≤ 1 / 4) (h1 : |chi1| ≤ 1) (h2 : |chi2| ≤ 1) (hD : 0 < D) :
    ∃ x y : ℝ, 0 < x ∧ x < fCut (thetaOf Mc eta chi1 chi2) ∧ x < y ∧
    (gen_IMRPhenomD q [x] [Mc, eta, chi1, chi2, D, tc, phic] f_ref).getD 0 0 ≠ 0 ∧
    (gen_IMRPhenomD q [x, y] [Mc, eta, chi1, chi2, D, tc, phic] f_ref).getD 0 0 = 0 := by
  have hp := thetaOf_physical (chi1 := chi1) (chi2 := chi2) hMc he he' h1 h2
  obtain ⟨a, b, c, d, e, g1, g2, g3⟩ := C74_amplitude_regions_ordered q hq _ hp
  set tf := tfOf q (thetaOf Mc eta chi1 chi2) with htf
  set cc := fCut (thetaOf Mc eta chi1 chi2) with hcc
  have c' : tf.f4 < cc := lt_of_le_of_lt c d
  refine ⟨(tf.f4 + cc) / 2, cc, ?_, by linarith, by linarith, ?_⟩
  · have : 0 < tf.f4 := a.trans b
    have : 0 < cc := this.trans c'
    positivity
  · have : 0 < tf.f4 := a.trans b
    have b' : tf.f3 < tf.f4 := b
    exact C33_not_local q Mc eta chi1 chi2 D tc phic f_ref ((tf.f4 + cc) / 2) (by linarith) hMc he he' hD g1 g3 e
      (by show tf.f3 < _; linarith) (by show tf.f4 < _; linarith) (by show _ < cc; linarith)

/-! ### What the pieces are (C28, C29) -/

/-- On the three frequency regions the phase is: the post-Newtonian inspiral phase with the four pseudo-PN terms;
    the antiderivative of beta1 + beta2/x + beta3/x⁴ over eta up to an affine function; the antiderivative of
    alpha1 + alpha2/x² + alpha3 x^(-1/4) + alpha4 fdamp/(fdamp² + (x - alpha5 fRD)²) over eta up to an affine function. -/
theorem C28_regions (theta : Theta) (coeffs : Fin 19 → ℝ) (tf : TransFreqs) (hf : tf.f1 < tf.f2) :
    let M := (theta.m1 + theta.m2) * gt
    let eta := theta.m1 * gt * (theta.m2 * gt) / M ^ 2
    (∀ f, f < tf.f1 → Phase f theta coeffs tf = phi_TF2 (f * M) theta
      + (coeffs 7 * (f * M) + 3 / 4 * coeffs 8 * (f * M) ^ ((4 : ℝ) / 3) + 3 / 5 * coeffs 9 * (f * M) ^ ((5 : ℝ) / 3)
        + 1 / 2 * coeffs 10 * (f * M) ^ 2) / eta) ∧
    (∃ a b : ℝ, ∀ f, tf.f1 < f → f < tf.f2 → Phase f theta coeffs tf =
      (coeffs 11 * (f * M) + coeffs 12 * Real.log (f * M) - coeffs 13 / 3 / (f * M) ^ 3) / eta + a + b * f) ∧
    (∃ a b : ℝ, ∀ f, tf.f2 < f → Phase f theta coeffs tf =
      (coeffs 14 * (f * M) - coeffs 15 / (f * M) + 4 / 3 * coeffs 16 * (f * M) ^ ((3 : ℝ) / 4)
        + coeffs 17 * Real.arctan ((f * M - coeffs 18 * (tf.f_RD * M)) / (tf.f_damp * M))) / eta + a + b * f) := by
  intro M eta
  have hM : theta.m1 * gt + theta.m2 * gt = M := by show _ = (theta.m1 + theta.m2) * gt; ring
  refine ⟨fun f h => ?_, ?_, ?_⟩
  · unfold Phase
    simp only [hM]
    rw [Jnp.heaviside_pos (x := tf.f1 - f) (by linarith), Jnp.heaviside_neg (x := f - tf.f1) (by linarith),
      Jnp.heaviside_neg (x := f - tf.f2) (by linarith)]
    unfold get_inspiral_phase
    simp only [hM]
    ring
  · unfold Phase
    simp only [hM]
    set c := deriv (fun x => get_inspiral_phase x theta coeffs) (tf.f1 * M) -
      deriv (fun x => get_IIa_raw_phase x theta coeffs) (tf.f1 * M) with hc
    refine ⟨get_inspiral_phase (tf.f1 * M) theta coeffs - c * (tf.f1 * M) - get_IIa_raw_phase (tf.f1 * M) theta coeffs,
      c * M, fun f h1 h2 => ?_⟩
    rw [Jnp.heaviside_neg (x := tf.f1 - f) (by linarith), Jnp.heaviside_pos (x := f - tf.f1) (by linarith),
      Jnp.heaviside_pos (x := tf.f2 - f) (by linarith), Jnp.heaviside_neg (x := f - tf.f2) (by linarith)]
    rw [show get_IIa_raw_phase (f * M) theta coeffs = (coeffs 11 * (f * M) + coeffs 12 * Real.log (f * M)
      - coeffs 13 / 3 / (f * M) ^ 3) / eta from ?_]
    · ring
    · unfold get_IIa_raw_phase
      simp only [hM]
      show _ / (theta.m1 * gt * (theta.m2 * gt) / M ^ 2) = _ / (theta.m1 * gt * (theta.m2 * gt) / M ^ 2)
      congr 1
      have : (f * M) ^ (-3 : ℤ) = ((f * M) ^ 3)⁻¹ := by
        rw [zpow_neg]; norm_cast
      rw [this]; ring
  · have hB : ∀ x, get_IIb_raw_phase x theta coeffs tf.f_RD tf.f_damp =
        (coeffs 14 * x - coeffs 15 / x + 4 / 3 * coeffs 16 * x ^ ((3 : ℝ) / 4)
        + coeffs 17 * Real.arctan ((x - coeffs 18 * (tf.f_RD * M)) / (tf.f_damp * M))) / eta := by
      intro x
      unfold get_IIb_raw_phase
      simp only [hM]
      show _ / (theta.m1 * gt * (theta.m2 * gt) / M ^ 2) = _ / (theta.m1 * gt * (theta.m2 * gt) / M ^ 2)
      congr 1
      rw [zpow_neg_one]; ring
    unfold Phase
    simp only [hM]
    generalize ha0 : (_ - _ - get_IIb_raw_phase (tf.f2 * M) theta coeffs tf.f_RD tf.f_damp : ℝ) = a0
    generalize hb0 : (_ - deriv (fun x => get_IIb_raw_phase x theta coeffs tf.f_RD tf.f_damp) (tf.f2 * M) : ℝ) = b0
    refine ⟨a0, b0 * M, fun f h => ?_⟩
    rw [Jnp.heaviside_neg (x := tf.f1 - f) (by linarith), Jnp.heaviside_neg (x := tf.f2 - f) (by linarith),
      Jnp.heaviside_pos (x := f - tf.f2) (by linarith), hB]
    ring

/-- The amplitude (below the cutoff) is the prefactor `sqrt(2 eta/3) π^(-1/6) (M f)^(-7/6) · 2 sqrt(5/(64π)) M²/D` times
    the post-Newtonian series (coefficients compared with those of IMRPhenomXAS in C69) plus the calibrated terms
    `coeffs[0] (Mf)^(7/3) + coeffs[1] (Mf)^(8/3) + coeffs[2] (Mf)³` below `f3`, the fitted value `coeffs[3]` half-way between `f3` and `f4`, and the damped
    Lorentzian above `f4`. -/
theorem C29_regions (theta : Theta) (h1 : 0 < theta.m1) (h2 : 0 < theta.m2) (coeffs : Fin 19 → ℝ) (tf : TransFreqs)
    (hf : tf.f3 < tf.f4) (D : ℝ) (grid : List ℝ) (hne : grid ≠ [])
    (hg : ∀ f ∈ grid, f < 0.2 / ((theta.m1 + theta.m2) * gt)) (j : ℕ) (hj : j < grid.length) :
    let f := grid.getD j 0
    let M := (theta.m1 + theta.m2) * gt
    let pre := Real.sqrt (2 / 3 * (theta.m1 * theta.m2 / (theta.m1 + theta.m2) ^ 2)) * (f * M) ^ (-(7 / 6) : ℝ)
      * Real.pi ^ (-(1 / 6) : ℝ) * (2 * Real.sqrt (5 / (64 * Real.pi))) * M ^ 2 / (D * m_per_Mpc / C)
    let A := (Amp grid theta coeffs tf D).getD j 0
    let pn := get_inspiral_Amp_coeffs theta
    (f < tf.f3 → A = pre * (1 + pn.A2 * (f * M) ^ ((2 : ℝ) / 3) + pn.A3 * (f * M) + pn.A4 * (f * M) ^ ((4 : ℝ) / 3)
      + pn.A5 * (f * M) ^ ((5 : ℝ) / 3) + pn.A6 * (f * M) ^ 2 + coeffs 0 * (f * M) ^ ((7 : ℝ) / 3)
      + coeffs 1 * (f * M) ^ ((8 : ℝ) / 3) + coeffs 2 * (f * M) ^ 3)) ∧
    (f = (tf.f3 + tf.f4) / 2 → A = pre * coeffs 3) ∧
    (tf.f4 < f → A = pre * (coeffs 4 * (coeffs 6 * (tf.f_damp * M)) / ((f * M - tf.f_RD * M) ^ 2
        + (coeffs 6 * (tf.f_damp * M)) ^ 2) * Real.exp (-(coeffs 5 * (f * M - tf.f_RD * M)
          / (coeffs 6 * (tf.f_damp * M)))))) := by
  intro f M pre A pn
  have hgt := gt_pos
  have hM : theta.m1 * gt + theta.m2 * gt = M := by show _ = (theta.m1 + theta.m2) * gt; ring
  have hMs : Ms theta = M := hM
  have hMp : 0 < M := by rw [← hM]; positivity
  have hx : f < fM_CUT / Ms theta := by
    rw [hMs]; exact hg _ (Jnp.getD_mem hj)
  have hlast : grid.getD (grid.length - 1) 0 < fM_CUT / Ms theta := by
    rw [hMs]; exact hg _ (Jnp.getD_mem (by omega))
  have eA : A = ampAt theta coeffs tf D (fM_CUT / Ms theta) f := by
    show (Amp grid theta coeffs tf D).getD j 0 = _
    rw [Amp_eq, cutThr_uncut hne hlast]
    rw [List.getD_eq_getElem _ _ (by simpa using hj), List.getElem_map, ← List.getD_eq_getElem _ 0 hj]
  have epre : get_Amp0 (f * M) (theta.m1 * gt * (theta.m2 * gt) / M ^ 2) * (2 * Real.sqrt (5 / (64 * PI))) * M ^ 2
      / (D * m_per_Mpc / C) = pre := by
    show _ = Real.sqrt (2 / 3 * (theta.m1 * theta.m2 / (theta.m1 + theta.m2) ^ 2)) * (f * M) ^ (-(7 / 6) : ℝ)
      * Real.pi ^ (-(1 / 6) : ℝ) * (2 * Real.sqrt (5 / (64 * Real.pi))) * M ^ 2 / (D * m_per_Mpc / C)
    unfold get_Amp0
    simp only [PI]
    rw [Real.sqrt_eq_rpow (2 / 3 * _)]
    have : theta.m1 * gt * (theta.m2 * gt) / M ^ 2 = theta.m1 * theta.m2 / (theta.m1 + theta.m2) ^ 2 := by
      show _ / ((theta.m1 + theta.m2) * gt) ^ 2 = _
      field_simp
    rw [this]
  have emul : ∀ X, get_Amp0 (f * M) (theta.m1 * gt * (theta.m2 * gt) / M ^ 2) * (2 * Real.sqrt (5 / (64 * PI))) * X *
      M ^ 2 / (D * m_per_Mpc / C) = pre * X := by
    intro X; rw [← epre]; ring
  refine ⟨fun h => ?_, fun h => ?_, fun h => ?_⟩
  · rw [eA]; unfold ampAt
    simp only [hMs]
    rw [Jnp.heaviside_pos (x := tf.f3 - f) (by linarith), Jnp.heaviside_neg (x := f - tf.f3) (by linarith),
      Jnp.heaviside_neg (x := f - tf.f4) (by linarith), ← emul]
    have : get_inspiral_Amp (f * M) theta coeffs = 1 + pn.A2 * (f * M) ^ ((2 : ℝ) / 3) + pn.A3 * (f * M)
        + pn.A4 * (f * M) ^ ((4 : ℝ) / 3) + pn.A5 * (f * M) ^ ((5 : ℝ) / 3) + pn.A6 * (f * M) ^ 2
        + coeffs 0 * (f * M) ^ ((7 : ℝ) / 3) + coeffs 1 * (f * M) ^ ((8 : ℝ) / 3) + coeffs 2 * (f * M) ^ 3 := rfl
    rw [this]
    ring
  · rw [eA]; unfold ampAt
    simp only [hMs]
    rw [Jnp.heaviside_neg (x := tf.f3 - f) (by linarith), Jnp.heaviside_pos (x := f - tf.f3) (by linarith),
      Jnp.heaviside_pos (x := tf.f4 - f) (by linarith), Jnp.heaviside_neg (x := f - tf.f4) (by linarith), ← emul]
    have n12 : tf.f3 * M ≠ (tf.f3 + tf.f4) / 2 * M := by
      intro h; have := mul_right_cancel₀ hMp.ne' h; linarith
    have n13 : tf.f3 * M ≠ tf.f4 * M := by
      intro h; have := mul_right_cancel₀ hMp.ne' h; linarith
    have n23 : (tf.f3 + tf.f4) / 2 * M ≠ tf.f4 * M := by
      intro h; have := mul_right_cancel₀ hMp.ne' h; linarith
    have : get_IIa_Amp (f * M) theta coeffs tf.f3 tf.f4 tf.f_RD tf.f_damp = coeffs 3 := by
      unfold get_IIa_Amp
      simp only [hM, h]
      exact delta_value2 _ _ _ _ _ n12 n13 n23
    rw [this]; ring
  · rw [eA]; unfold ampAt
    simp only [hMs]
    rw [Jnp.heaviside_neg (x := tf.f3 - f) (by linarith), Jnp.heaviside_neg (x := tf.f4 - f) (by linarith),
      Jnp.heaviside_pos (x := f - tf.f4) (by linarith),
      Jnp.heaviside_pos (x := fM_CUT / M - f) (by rw [hMs] at hx; linarith)]
    have : get_IIb_Amp (f * M) theta coeffs tf.f_RD tf.f_damp = coeffs 4 * (coeffs 6 * (tf.f_damp * M)) /
        ((f * M - tf.f_RD * M) ^ 2 + (coeffs 6 * (tf.f_damp * M)) ^ 2) * Real.exp (-(coeffs 5 * (f * M - tf.f_RD * M)
          / (coeffs 6 * (tf.f_damp * M)))) := by
      unfold get_IIb_Amp
      simp only [hM]
      rw [show -(f * M - tf.f_RD * M) * coeffs 5 / (tf.f_damp * M * coeffs 6) =
        -(coeffs 5 * (f * M - tf.f_RD * M) / (coeffs 6 * (tf.f_damp * M))) by ring,
        show tf.f_damp * M * coeffs 6 = coeffs 6 * (tf.f_damp * M) by ring]
      ring
    rw [this, ← emul]
    ring

end Ripple

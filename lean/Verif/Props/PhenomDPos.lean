/-
  Property C101: the PhenomD amplitude has no zeros below the cutoff.
-/
import Verif.Proofs.DZero
import Verif.Props.XASPos

namespace Ripple
open Set PhenomD

/-- the mass difference over the total mass for a mass ratio up to 50 -/
lemma d_of_ratio50 {theta : Theta} (h : theta.Physical) (h12 : theta.m1 ≤ 50 * theta.m2) (h21 : theta.m2 ≤ theta.m1) :
    XAS.dOf theta ≤ 0.961 := by
  have hg := gt_pos
  have a1 := h.m1_pos
  have a2 := h.m2_pos
  have he : 50 / 2601 ≤ XAS.etaOf theta := by
    unfold XAS.etaOf
    rw [div_le_div_iff₀ (by norm_num) (by positivity)]
    have := mul_nonneg (mul_nonneg (sub_nonneg.2 h12) (sub_nonneg.2 (show theta.m2 ≤ 50 * theta.m1 by linarith))) (sq_nonneg gt)
    linarith
  obtain ⟨d0, -, hd⟩ := XAS.dOf_range h
  norm_num
  nlinarith

/-- mass ratio of the masses belonging to a symmetric mass ratio -/
lemma ratio_of_eta {Mc eta : ℝ} (hMc : 0 < Mc) (he : 50 / 2601 ≤ eta) (he' : eta ≤ 1 / 4) :
    (Mc_eta_to_ms Mc eta).1 ≤ 50 * (Mc_eta_to_ms Mc eta).2 ∧ (Mc_eta_to_ms Mc eta).2 ≤ (Mc_eta_to_ms Mc eta).1 := by
  have he0 : 0 < eta := by linarith
  have hord := C02_masses_ordered Mc eta hMc he0 he'
  have hrt := congrArg Prod.snd (C01_roundtrip_Mc_eta Mc eta hMc he0 he')
  change _ = eta at hrt
  change 0 < (Mc_eta_to_ms Mc eta).2 ∧ (Mc_eta_to_ms Mc eta).2 ≤ (Mc_eta_to_ms Mc eta).1 ∧ _ at hord
  obtain ⟨o1, o2, -⟩ := hord
  refine ⟨?_, o2⟩
  generalize (Mc_eta_to_ms Mc eta).1 = m1 at *
  generalize (Mc_eta_to_ms Mc eta).2 = m2 at *
  change m1 * m2 / (m1 + m2) ^ 2 = eta at hrt
  rw [← hrt, div_le_div_iff₀ (by norm_num) (by nlinarith)] at he
  by_contra hlt
  push Not at hlt
  nlinarith

/-! ### C101 -/

/-- For mass ratios up to 50, the heavier body first, and any aligned spins in [-1, 1], the PhenomD amplitude on any grid below
    the cutoff `0.2/M` is positive at every positive frequency. -/
theorem C101_amplitude_positive {eps : ℝ} (he : 0 ≤ eps) (he' : eps < 4e-6) (theta : Theta) (h : theta.Physical)
    (h12 : theta.m1 ≤ 50 * theta.m2) (h21 : theta.m2 ≤ theta.m1) (D : ℝ) (hD : 0 < D) (grid : List ℝ)
    (hg : ∀ f ∈ grid, 0 < f ∧ f < 0.2 / ((theta.m1 + theta.m2) * gt)) :
    ∀ A ∈ Amp grid theta (get_coeffs theta)
      (get_transition_frequencies (qnmTable eps) theta (get_coeffs theta 5) (get_coeffs theta 6)) D, 0 < A := by
  intro A hA
  rw [Amp_eq] at hA
  obtain ⟨x, hx, rfl⟩ := List.mem_map.1 hA
  have hne : grid ≠ [] := List.ne_nil_of_mem hx
  have hl := List.length_pos_of_ne_nil hne
  have hcut := (hg _ (Jnp.getD_mem (l := grid) (i := grid.length - 1) (by omega))).2
  have e : fM_CUT / Ms theta = 0.2 / ((theta.m1 + theta.m2) * gt) := by rw [Ms_eq, fM_CUT]
  rw [cutThr_uncut hne (by rw [e]; exact hcut), e]
  exact ampAt_pos he he' h h21 (d_of_ratio50 h h12 h21) hD (hg x hx).1 (hg x hx).2

/-- The generated strain has no zero at any positive frequency of a grid below the cutoff, for every symmetric mass ratio from
    50/2601 (mass ratio 50) to 1/4 and all aligned spins. -/
theorem C101_strain_nonzero {eps : ℝ} (hp : 0 ≤ eps) (hp' : eps < 4e-6) (Mc eta chi1 chi2 D tc phic f_ref : ℝ) (hMc : 0 < Mc)
    (he : 50 / 2601 ≤ eta) (he' : eta ≤ 1 / 4) (h1 : |chi1| ≤ 1) (h2 : |chi2| ≤ 1) (hD : 0 < D) (grid : List ℝ)
    (hl : grid.getD (grid.length - 1) 0 < 0.2 / (((Mc_eta_to_ms Mc eta).1 + (Mc_eta_to_ms Mc eta).2) * gt))
    (j : ℕ) (hj : j < grid.length) (hf : 0 < grid.getD j 0)
    (hf' : grid.getD j 0 < 0.2 / (((Mc_eta_to_ms Mc eta).1 + (Mc_eta_to_ms Mc eta).2) * gt)) :
    (gen_IMRPhenomD (qnmTable eps) grid [Mc, eta, chi1, chi2, D, tc, phic] f_ref).getD j 0 ≠ 0 := by
  have he0 : 0 < eta := by linarith
  have hph := thetaOf_physical (chi1 := chi1) (chi2 := chi2) hMc he0 he' h1 h2
  obtain ⟨r1, r2⟩ := ratio_of_eta hMc he he'
  have hne : grid ≠ [] := by rintro rfl; simp at hj
  change _ < fCut (thetaOf Mc eta chi1 chi2) at hl hf'
  rw [genD_eq, map_getElem hj, cutThr_uncut hne hl, strainAt_below hf']
  refine mul_ne_zero ?_ (Complex.exp_ne_zero _)
  exact_mod_cast (ampAt_pos hp hp' hph r2 (d_of_ratio50 hph r1 r2) hD hf hf').ne'

/-- On an increasing grid reaching the cutoff, whose point closest to the cutoff is at position `i`, the samples before position
    `i - 1` have no zero (from position `i - 1` on they are cut, see C30). -/
theorem C101_strain_nonzero_cut {eps : ℝ} (hp : 0 ≤ eps) (hp' : eps < 4e-6) (Mc eta chi1 chi2 D tc phic f_ref : ℝ) (hMc : 0 < Mc)
    (he : 50 / 2601 ≤ eta) (he' : eta ≤ 1 / 4) (h1 : |chi1| ≤ 1) (h2 : |chi2| ≤ 1) (hD : 0 < D) (grid : List ℝ)
    (hinc : Increasing grid) (i : ℕ)
    (hl : 0.2 / (((Mc_eta_to_ms Mc eta).1 + (Mc_eta_to_ms Mc eta).2) * gt) ≤ grid.getD (grid.length - 1) 0)
    (hi : IsClosest grid (0.2 / (((Mc_eta_to_ms Mc eta).1 + (Mc_eta_to_ms Mc eta).2) * gt)) i)
    (j : ℕ) (hj : j + 1 < i) (hf : 0 < grid.getD j 0) :
    (gen_IMRPhenomD (qnmTable eps) grid [Mc, eta, chi1, chi2, D, tc, phic] f_ref).getD j 0 ≠ 0 := by
  obtain ⟨k1, k2⟩ := C30_kept (qnmTable eps) Mc eta chi1 chi2 D tc phic f_ref grid hinc i hl hi (by omega) j (by omega)
  rw [k1]
  refine C101_strain_nonzero hp hp' Mc eta chi1 chi2 D tc phic f_ref hMc he he' h1 h2 hD _ ?_ 0 (by simp) ?_ ?_
  · exact k2
  · exact hf
  · exact k2

/-- witness: masses 100 and 2 with extremal spins, single-precision guard, 20 Hz -/
example : (Theta.mk 100 2 (-1) 1).Physical ∧ (100 : ℝ) ≤ 50 * 2 ∧ (20 : ℝ) < 0.2 / ((100 + 2) * gt) ∧ (1.2e-7 : ℝ) < 4e-6 := by
  refine ⟨⟨by norm_num, by norm_num, by norm_num, by norm_num⟩, by norm_num, ?_, by norm_num⟩
  have hg := gt_pos
  have : gt < 0.000005 := by unfold gt G MSUN C; norm_num
  rw [lt_div_iff₀ (by positivity)]
  norm_num at this ⊢
  linarith

/-- Outside that range the property fails: for mass ratios of 5000 or more and a primary spin of at least 0.9999 the amplitude
    has a zero below the cutoff and is negative at a higher frequency below the cutoff, for every secondary spin, total mass and
    distance. -/
theorem C101_amplitude_zero_extreme {eps : ℝ} (he : 0 ≤ eps) (he' : eps < 4e-6) (theta : Theta) (h : theta.Physical)
    (hq : 5000 * theta.m2 ≤ theta.m1) (hx : 0.9999 ≤ theta.chi1) (D : ℝ) (hD : 0 < D) :
    ∃ f f', 0 < f ∧ f < f' ∧ f' < 0.2 / ((theta.m1 + theta.m2) * gt) ∧
      Amp [f] theta (get_coeffs theta)
        (get_transition_frequencies (qnmTable eps) theta (get_coeffs theta 5) (get_coeffs theta 6)) D = [0] ∧
      ∃ A < 0, Amp [f'] theta (get_coeffs theta)
        (get_transition_frequencies (qnmTable eps) theta (get_coeffs theta 5) (get_coeffs theta 6)) D = [A] := by
  obtain ⟨f, f', h0, h1, h2, hz⟩ := ampAt_zero he he' h hq hx hD
  refine ⟨f, f', h0, h1, h2, ?_, _, (hz (cutThr [f'] (fM_CUT / Ms theta))).2, ?_⟩
  · rw [Amp_eq, List.map_cons, List.map_nil, (hz _).1]
  · rw [Amp_eq, List.map_cons, List.map_nil]

/-- In terms of the generator: the strain vanishes at a frequency below the cutoff. -/
theorem C101_strain_zero_extreme {eps : ℝ} (hp : 0 ≤ eps) (hp' : eps < 4e-6) (Mc eta chi1 chi2 D tc phic f_ref : ℝ)
    (hMc : 0 < Mc) (he : 0 < eta) (he' : eta ≤ 5000 / 25010001) (h1 : 0.9999 ≤ chi1) (h1' : chi1 ≤ 1) (h2 : |chi2| ≤ 1)
    (hD : 0 < D) :
    ∃ f, 0 < f ∧ f < 0.2 / (((Mc_eta_to_ms Mc eta).1 + (Mc_eta_to_ms Mc eta).2) * gt) ∧
      gen_IMRPhenomD (qnmTable eps) [f] [Mc, eta, chi1, chi2, D, tc, phic] f_ref = [0] := by
  have he4 : eta ≤ 1 / 4 := by linarith
  have hph := thetaOf_physical (chi1 := chi1) (chi2 := chi2) hMc he he4 (abs_le.2 ⟨by norm_num at h1; linarith, h1'⟩) h2
  have hord := C02_masses_ordered Mc eta hMc he he4
  have hrt := congrArg Prod.snd (C01_roundtrip_Mc_eta Mc eta hMc he he4)
  change _ = eta at hrt
  have hq : 5000 * (Mc_eta_to_ms Mc eta).2 ≤ (Mc_eta_to_ms Mc eta).1 := by
    change 0 < (Mc_eta_to_ms Mc eta).2 ∧ (Mc_eta_to_ms Mc eta).2 ≤ (Mc_eta_to_ms Mc eta).1 ∧ _ at hord
    obtain ⟨o1, o2, -⟩ := hord
    generalize (Mc_eta_to_ms Mc eta).1 = m1 at *
    generalize (Mc_eta_to_ms Mc eta).2 = m2 at *
    change m1 * m2 / (m1 + m2) ^ 2 = eta at hrt
    rw [← hrt, div_le_div_iff₀ (by nlinarith) (by norm_num)] at he'
    by_contra hlt
    push Not at hlt
    have : 0 < (5000 * m2 - m1) * (5000 * m1 - m2) := mul_pos (by linarith) (by linarith)
    nlinarith
  obtain ⟨f, f', k0, k1, k2, hz⟩ := ampAt_zero hp hp' (theta := thetaOf Mc eta chi1 chi2) hph hq h1 hD
  have hf : f < fCut (thetaOf Mc eta chi1 chi2) := k1.trans k2
  refine ⟨f, k0, hf, ?_⟩
  rw [genD_eq, List.map_cons, List.map_nil, cutThr_uncut (by simp) (by simpa using hf), strainAt_below hf]
  have := (hz (fCut (thetaOf Mc eta chi1 chi2))).1
  change ampAt _ _ (tfOf (qnmTable eps) (thetaOf Mc eta chi1 chi2)) _ _ _ = 0 at this
  rw [this]
  simp

/-- witness: a neutron star falling into an extremal black hole of 10⁴ solar masses -/
example : (Theta.mk 10000 1.4 1 0).Physical ∧ 5000 * (1.4 : ℝ) ≤ 10000 ∧ (0.9999 : ℝ) ≤ 1 := by
  refine ⟨⟨by norm_num, by norm_num, by norm_num, by norm_num⟩, by norm_num, by norm_num⟩

end Ripple

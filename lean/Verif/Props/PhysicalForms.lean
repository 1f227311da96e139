/-
  Properties C25, C31, C41, C46, C76 for every physical binary: the conditions on the transition frequencies under which these
  properties are proved elsewhere hold by C74, and no sample below the cutoff is zero by C101.
-/
import Verif.Props.PhenomDPos
import Verif.Props.NRTidalv2
import Mathlib.Tactic.IntervalCases

namespace Ripple
open Set PhenomD TaylorF2 NRTidalv2

/-- two grid points between `0.199/M` and the cutoff put the cut threshold above the last transition frequency -/
lemma thr_above {q : QNM} (hq : q.Shipped) {theta : Theta} (h : theta.Physical) {grid : List ℝ} (hinc : Increasing grid) {i : ℕ}
    (hi : IsClosest grid (fCut theta) i) {k : ℕ} (hk : 0.199 / ((theta.m1 + theta.m2) * gt) ≤ grid.getD k 0)
    (hk' : grid.getD (k + 1) 0 ≤ fCut theta) (hkl : k + 1 < grid.length) :
    0 < i ∧ (tfOf q theta).f3 < grid.getD (i - 1) 0 ∧ (tfOf q theta).f4 < grid.getD (i - 1) 0 := by
  obtain ⟨a3, a34, a4, -, -⟩ := C74_amplitude_regions_ordered q hq _ h
  obtain ⟨y, z, w, hr⟩ := fRD_fdamp_range hq h
  have hM : 0 < Ms theta := by have := gt_pos; have := h.m1_pos; have := h.m2_pos; unfold Ms; positivity
  have hR : (tfOf q theta).f_RD < 0.199 / ((theta.m1 + theta.m2) * gt) := by
    change (get_fRD_fdamp q theta.m1 theta.m2 theta.chi1 theta.chi2).1 < _
    rw [hr.2.2.2.2.2.2.1, Ms_eq]
    gcongr
    norm_num at hr ⊢
    nlinarith [hr.1, hr.2.1, hr.2.2.2.2.1, hr.2.2.2.2.2.1]
  have hik : k + 1 ≤ i := by
    by_contra hlt
    have hlt' : i < k + 1 := by omega
    have b := hi.2.1 (k + 1) hkl
    have c := hinc i (k + 1) hlt' hkl
    rw [abs_of_nonpos (by linarith), abs_of_nonpos (by linarith)] at b
    linarith
  have hge : grid.getD k 0 ≤ grid.getD (i - 1) 0 := by
    rcases Nat.lt_or_ge k (i - 1) with h' | h'
    · exact (hinc _ _ h' (by have := hi.1; omega)).le
    · rw [show i - 1 = k by omega]
  have f4 : (tfOf q theta).f4 < grid.getD (i - 1) 0 := by
    have : (tfOf q theta).f4 ≤ (tfOf q theta).f_RD := a4
    linarith
  exact ⟨by omega, lt_trans a34 f4, f4⟩

/-- C31 on grids that reach the cutoff, for every physical binary: as soon as two grid points lie between `0.199/M` and the
    cutoff `0.2/M`, shifting the time and the phase of coalescence multiplies every sample by the corresponding factor. -/
theorem C31_time_phase_cut_physical (q : QNM) (hq : q.Shipped) (Mc eta chi1 chi2 D tc phic f_ref : ℝ) (hMc : 0 < Mc)
    (he : 0 < eta) (he' : eta ≤ 1 / 4) (h1 : |chi1| ≤ 1) (h2 : |chi2| ≤ 1) (grid : List ℝ) (hinc : Increasing grid)
    (hl : 0.2 / (((Mc_eta_to_ms Mc eta).1 + (Mc_eta_to_ms Mc eta).2) * gt) ≤ grid.getD (grid.length - 1) 0) (k : ℕ)
    (hk : 0.199 / (((Mc_eta_to_ms Mc eta).1 + (Mc_eta_to_ms Mc eta).2) * gt) ≤ grid.getD k 0)
    (hk' : grid.getD (k + 1) 0 ≤ 0.2 / (((Mc_eta_to_ms Mc eta).1 + (Mc_eta_to_ms Mc eta).2) * gt))
    (hkl : k + 1 < grid.length) (dt dphi : ℝ) (j : ℕ) (hj : j < grid.length) :
    (gen_IMRPhenomD q grid [Mc, eta, chi1, chi2, D, tc + dt, phic + dphi] f_ref).getD j 0 =
      (gen_IMRPhenomD q grid [Mc, eta, chi1, chi2, D, tc, phic] f_ref).getD j 0 *
        Complex.exp (-2 * Real.pi * Complex.I * (grid.getD j 0 : ℝ) * dt) * Complex.exp (2 * Complex.I * dphi) := by
  have hp := thetaOf_physical (chi1 := chi1) (chi2 := chi2) hMc he he' h1 h2
  obtain ⟨i, hi⟩ := exists_closest (c := fCut (thetaOf Mc eta chi1 chi2)) (grid := grid) (by rintro rfl; simp at hj)
  obtain ⟨h0, h3, h4⟩ := thr_above hq hp hinc hi hk hk' hkl
  exact C31_time_phase_cut q Mc eta chi1 chi2 D tc phic f_ref grid hinc i hl hi h0 h3 h4 dt dphi j hj

/-- C41 for every physical binary: below `0.014/M` the PhenomD modulus is the TaylorF2 modulus times the inspiral amplitude
    correction and the ratio of the two solar-mass constants. -/
theorem C41_inspiral_physical (q : QNM) (hq : q.Shipped) (Mc eta chi1 chi2 D tc phic f_ref : ℝ) (hMc : 0 < Mc)
    (he : 0 < eta) (he' : eta ≤ 1 / 4) (h1 : |chi1| ≤ 1) (h2 : |chi2| ≤ 1) (hD : 0 < D) (grid : List ℝ) (hne : grid ≠ [])
    (hl : ∀ x ∈ grid, x < 0.2 / (((Mc_eta_to_ms Mc eta).1 + (Mc_eta_to_ms Mc eta).2) * gt)) (j : ℕ) (hj : j < grid.length)
    (hf : 0 < grid.getD j 0) (hf' : grid.getD j 0 < 0.014 / (((Mc_eta_to_ms Mc eta).1 + (Mc_eta_to_ms Mc eta).2) * gt))
    (l1 l2 tc' phic' f_ref' : ℝ) (b : Bool) :
    ‖(gen_IMRPhenomD q grid [Mc, eta, chi1, chi2, D, tc, phic] f_ref).getD j 0‖ =
      C * gt / MRSUN * ‖(gen_TaylorF2 grid [Mc, eta, chi1, chi2, l1, l2, D, tc', phic'] f_ref' b).getD j 0‖ *
        |get_inspiral_Amp (grid.getD j 0 * (((Mc_eta_to_ms Mc eta).1 + (Mc_eta_to_ms Mc eta).2) * gt))
          (thetaOf Mc eta chi1 chi2) (get_coeffs (thetaOf Mc eta chi1 chi2))| := by
  have hp := thetaOf_physical (chi1 := chi1) (chi2 := chi2) hMc he he' h1 h2
  obtain ⟨a3, a34, -⟩ := C74_amplitude_regions_ordered q hq _ hp
  exact C41_inspiral q Mc eta chi1 chi2 D tc phic f_ref hMc he he' hD grid hne hl j hj hf hf' (lt_trans hf' a34) l1 l2 tc' phic'
    f_ref' b

/-- C46 at every frequency below the cutoff: with zero deformabilities the NRTidalv2 strain of a binary of mass ratio up to 50
    with a spinning heavier body (and a lighter one with no larger aligned spin) differs from the PhenomD strain. -/
theorem C46_spinning_differs_everywhere {eps : ℝ} (hp : 0 ≤ eps) (hp' : eps < 4e-6) (Mc eta chi1 chi2 D tc phic f_ref x : ℝ)
    (hMc : 0 < Mc) (he : 50 / 2601 ≤ eta) (he' : eta ≤ 1 / 4) (h1 : 0 < chi1) (h1' : chi1 ≤ 1) (h2 : 0 ≤ chi2)
    (h2' : chi2 ≤ chi1) (hD : 0 < D) (hx : 0 < x)
    (hx' : x < 0.2 / (((Mc_eta_to_ms Mc eta).1 + (Mc_eta_to_ms Mc eta).2) * gt)) :
    (gen_IMRPhenomD_NRTidalv2 (qnmTable eps) [x] [Mc, eta, chi1, chi2, 0, 0, D, tc, phic] f_ref false true).getD 0 0 ≠
      (gen_IMRPhenomD (qnmTable eps) [x] [Mc, eta, chi1, chi2, D, tc, phic] f_ref).getD 0 0 :=
  spinning_differs_of_ne _ Mc eta chi1 chi2 D tc phic f_ref x hx hMc (by linarith) he' h1 h1' h2 h2' (by linarith) hx'
    (C101_strain_nonzero hp hp' Mc eta chi1 chi2 D tc phic f_ref hMc he he' (abs_le.2 ⟨by linarith, h1'⟩)
      (abs_le.2 ⟨by linarith, h2'.trans h1'⟩) hD [x] hx' 0 (by simp) hx hx')

/-- C76 for every physical binary: without the taper no sample at or above the cutoff is zero if one of the bodies is
    deformable, and these samples do not depend on tc, phic or f_ref. -/
theorem C76_no_taper_physical (q : QNM) (hq : q.Shipped) (Mc eta chi1 chi2 l1 l2 D : ℝ) (hMc : 0 < Mc)
    (he : 0 < eta) (he' : eta ≤ 1 / 4) (h1 : |chi1| ≤ 1) (h2 : |chi2| ≤ 1) (hD : 0 < D) (hl1 : 0 ≤ l1) (hl2 : 0 ≤ l2)
    (hl : 0 < l1 + l2) (grid : List ℝ) (hinc : Increasing grid) (k : ℕ)
    (hk : 0.199 / (((Mc_eta_to_ms Mc eta).1 + (Mc_eta_to_ms Mc eta).2) * gt) ≤ grid.getD k 0)
    (hk' : grid.getD (k + 1) 0 ≤ 0.2 / (((Mc_eta_to_ms Mc eta).1 + (Mc_eta_to_ms Mc eta).2) * gt))
    (hkl : k + 1 < grid.length) (j : ℕ) (hj : j < grid.length)
    (hx : 0.2 / (((Mc_eta_to_ms Mc eta).1 + (Mc_eta_to_ms Mc eta).2) * gt) ≤ grid.getD j 0) :
    ∃ z : ℂ, z ≠ 0 ∧ ∀ tc phic f_ref : ℝ,
      (gen_IMRPhenomD_NRTidalv2 q grid [Mc, eta, chi1, chi2, l1, l2, D, tc, phic] f_ref false true).getD j 0 = z := by
  have hp := thetaOf_physical (chi1 := chi1) (chi2 := chi2) hMc he he' h1 h2
  have hne : grid ≠ [] := by rintro rfl; simp at hj
  obtain ⟨i, hi⟩ := exists_closest (c := fCut (thetaOf Mc eta chi1 chi2)) (grid := grid) hne
  obtain ⟨h0, h3, h4⟩ := thr_above hq hp hinc hi hk hk' hkl
  have hlast : fCut (thetaOf Mc eta chi1 chi2) ≤ grid.getD (grid.length - 1) 0 := by
    rcases Nat.lt_or_ge j (grid.length - 1) with hlt | hge
    · exact le_trans hx (hinc _ _ hlt (by omega)).le
    · rw [show grid.length - 1 = j by omega]; exact hx
  obtain ⟨a3, a34, a4, a5, -⟩ := C74_amplitude_regions_ordered q hq _ hp
  have b4 : (tfOf q (thetaOf Mc eta chi1 chi2)).f4 < grid.getD j 0 := lt_of_lt_of_le (lt_of_le_of_lt a4 a5) hx
  exact C76_no_taper q Mc eta chi1 chi2 l1 l2 D grid hinc hMc he he' hD hl1 hl2 hl i hlast hi h0 j hj
    (by have := (C30_lost_points grid hinc _ i hi h0).2.1 j hj hx; omega) ((a3.trans (lt_trans a34 b4)))
    (lt_trans a34 b4) b4

/-- witness for the grid conditions: total mass 1/gt (that is `M = 1 s`), grid 0.1, 0.1992, 0.1997, 0.3 -/
example : Increasing [0.1, 0.1992, 0.1997, 0.3] ∧ (0.199 : ℝ) ≤ [0.1, 0.1992, 0.1997, 0.3].getD 1 0 ∧
    ([0.1, 0.1992, 0.1997, 0.3] : List ℝ).getD (1 + 1) 0 ≤ 0.2 ∧ (0.2 : ℝ) ≤ [0.1, 0.1992, 0.1997, 0.3].getD 3 0 := by
  refine ⟨?_, by norm_num, by norm_num, by norm_num⟩
  intro i j hij hj
  have hj' : j < 4 := by simpa using hj
  interval_cases j <;> interval_cases i <;> norm_num

/-- C25 for every physical binary with `gamma2 < 1`: the transition frequency `f4` is a stationary point of the
    merger-ringdown amplitude, below the ringdown frequency, and the amplitude decreases ever after. -/
theorem C25_peak_physical (q : QNM) (hq : q.Shipped) (theta : Theta) (h : theta.Physical) (hg : get_coeffs theta 5 < 1) :
    let tf := get_transition_frequencies q theta (get_coeffs theta 5) (get_coeffs theta 6)
    let A : ℝ → ℝ := fun f => get_IIb_Amp (f * ((theta.m1 + theta.m2) * gt)) theta (get_coeffs theta) tf.f_RD tf.f_damp
    HasDerivAt A 0 tf.f4 ∧ tf.f4 ≤ tf.f_RD ∧ StrictAntiOn A (Ici tf.f4) ∧ ∃ f' < tf.f4, StrictMonoOn A (Icc f' tf.f4) := by
  intro tf A
  obtain ⟨-, -, a4, -, ad, g1, g2, g3⟩ := C74_amplitude_regions_ordered q hq _ h
  obtain ⟨-, -, -, g3'⟩ := coeffs_range h
  obtain ⟨y, z, w, y0, -, -, z1, w0, -, eR, eD⟩ := fRD_fdamp_range hq h
  have hM : 0 < Ms theta := by have := gt_pos; have := h.m1_pos; have := h.m2_pos; unfold Ms; positivity
  have hle : tf.f_damp * 1.5 ≤ tf.f_RD := by
    change (get_fRD_fdamp q theta.m1 theta.m2 theta.chi1 theta.chi2).2 * 1.5 ≤
      (get_fRD_fdamp q theta.m1 theta.m2 theta.chi1 theta.chi2).1
    rw [eR, eD, div_mul_eq_mul_div, mul_right_comm]
    gcongr
    norm_num at *
    nlinarith
  have hs : (1 - Real.sqrt (1 - get_coeffs theta 5 ^ 2)) / get_coeffs theta 5 ≤ 1 := by
    rw [div_le_one g2]
    have : 1 - get_coeffs theta 5 ≤ Real.sqrt (1 - get_coeffs theta 5 ^ 2) := Real.le_sqrt_of_sq_le (by nlinarith)
    linarith
  obtain ⟨p1, p2, p3, p4⟩ := C25_peak q theta h.m1_pos h.m2_pos (get_coeffs theta) g1 g2 hg g3 tf rfl ad (by
    have ad' : 0 < tf.f_damp := ad
    have hmul := mul_le_mul_of_nonneg_left hs (mul_pos ad' g3).le
    have hmul' := mul_le_mul_of_nonneg_left g3' ad'.le
    rw [mul_div_assoc]
    linarith)
  exact ⟨p1, a4, p4, _, p2, p3⟩

end Ripple

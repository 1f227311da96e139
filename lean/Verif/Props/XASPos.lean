/-
  Property C99: where the IMRPhenomXAS amplitude is positive and continuously differentiable.
-/
import Verif.Proofs.XASPos
import Verif.Proofs.XASSpin
import Verif.Proofs.XASPole
import Verif.Props.Conversions

namespace Ripple
open Set
open XAS

/-- the modulus of a sample of the strain -/
lemma genX_norm (grid : List ℝ) (Mc eta chi1 chi2 D tc phic f_ref : ℝ) (j : ℕ) (hj : j < grid.length) :
    ‖(XAS.gen_IMRPhenomXAS grid [Mc, eta, chi1, chi2, D, tc, phic] f_ref).getD j 0‖ =
      |Amp (grid.getD j 0) (thetaOf Mc eta chi1 chi2) PhenomX_amp_coeff_table D| := by
  rw [genX_eq, PhenomD.map_getElem hj]
  unfold XAS.strainAt
  rw [norm_mul, mul_comm Complex.I, Complex.norm_exp_ofReal_mul_I, mul_one, Complex.norm_real, Real.norm_eq_abs]

/-! ### C99 -/

/-- For every pair of masses without spins the amplitude is positive at every frequency up to the cutoff `f M = 0.3`; in
    particular the denominator polynomial of the intermediate region has no zero there. -/
theorem C99_amplitude_positive_nonspinning (theta : Theta) (h : theta.Physical) (h1 : theta.chi1 = 0) (h2 : theta.chi2 = 0)
    (D : ℝ) (hD : 0 < D) (f : ℝ) (hf : 0 < f) (hf' : f * ((theta.m1 + theta.m2) * gt) ≤ 0.3) :
    0 < Amp f theta PhenomX_amp_coeff_table D :=
  (ns_good h h1 h2).amp_pos h hD hf (by rwa [← PhenomD.Ms_eq])

/-- ... and it is continuously differentiable below the cutoff. -/
theorem C99_amplitude_C1_nonspinning (theta : Theta) (h : theta.Physical) (h1 : theta.chi1 = 0) (h2 : theta.chi2 = 0)
    (D : ℝ) (hD : 0 < D) :
    ContDiffOn ℝ 1 (fun f => Amp f theta PhenomX_amp_coeff_table D) (Ioo 0 (0.3 / ((theta.m1 + theta.m2) * gt))) :=
  (ns_good h h1 h2).amp_C1 h hD

/-- The generated strain of a non-spinning binary has no zero at any positive frequency up to the cutoff. -/
theorem C99_strain_nonzero_nonspinning (Mc eta D tc phic f_ref : ℝ) (hMc : 0 < Mc) (he : 0 < eta) (he' : eta ≤ 1 / 4)
    (hD : 0 < D) (grid : List ℝ) (j : ℕ) (hj : j < grid.length) (hf : 0 < grid.getD j 0)
    (hf' : grid.getD j 0 * (((Mc_eta_to_ms Mc eta).1 + (Mc_eta_to_ms Mc eta).2) * gt) ≤ 0.3) :
    (XAS.gen_IMRPhenomXAS grid [Mc, eta, 0, 0, D, tc, phic] f_ref).getD j 0 ≠ 0 := by
  rw [← norm_ne_zero_iff, genX_norm _ _ _ _ _ _ _ _ _ _ hj]
  exact (abs_pos.2 (C99_amplitude_positive_nonspinning _ (thetaOf_physical hMc he he' (by simp) (by simp)) rfl rfl D hD _ hf
    hf').ne').ne'

/-- witness: 36+29 solar masses (M about 3.2e-4 s) at 100 Hz -/
example : (Theta.mk 36 29 0 0).Physical ∧ (100 : ℝ) * ((36 + 29) * gt) ≤ 0.3 := by
  refine ⟨⟨by norm_num, by norm_num, by norm_num, by norm_num⟩, ?_⟩
  have : gt < 0.000005 := by unfold gt G MSUN C; norm_num
  linarith

/-- the mass difference over the total mass for a mass ratio up to 20 -/
lemma d_of_ratio {theta : Theta} (h : theta.Physical) (h12 : theta.m1 ≤ 20 * theta.m2) (h21 : theta.m2 ≤ 20 * theta.m1) :
    dOf theta ≤ 0.905 := by
  have hg := gt_pos
  have a1 := h.m1_pos
  have a2 := h.m2_pos
  have he : 20 / 441 ≤ XAS.etaOf theta := by
    unfold XAS.etaOf
    rw [div_le_div_iff₀ (by norm_num) (by positivity)]
    have := mul_nonneg (mul_nonneg (sub_nonneg.2 h12) (sub_nonneg.2 h21)) (sq_nonneg gt)
    linarith
  obtain ⟨d0, -, hd⟩ := dOf_range h
  norm_num
  nlinarith

/-- With spins: for mass ratios up to 20 and any aligned spins in [-1, 1] the amplitude is positive at every frequency up to
    the cutoff. -/
theorem C99_amplitude_positive_spinning (theta : Theta) (h : theta.Physical) (h12 : theta.m1 ≤ 20 * theta.m2)
    (h21 : theta.m2 ≤ 20 * theta.m1) (D : ℝ) (hD : 0 < D) (f : ℝ) (hf : 0 < f)
    (hf' : f * ((theta.m1 + theta.m2) * gt) ≤ 0.3) :
    0 < Amp f theta PhenomX_amp_coeff_table D :=
  (sp_good h (d_of_ratio h h12 h21)).amp_pos h hD hf (by rwa [← PhenomD.Ms_eq])

/-- ... and it is continuously differentiable below the cutoff. -/
theorem C99_amplitude_C1_spinning (theta : Theta) (h : theta.Physical) (h12 : theta.m1 ≤ 20 * theta.m2)
    (h21 : theta.m2 ≤ 20 * theta.m1) (D : ℝ) (hD : 0 < D) :
    ContDiffOn ℝ 1 (fun f => Amp f theta PhenomX_amp_coeff_table D) (Ioo 0 (0.3 / ((theta.m1 + theta.m2) * gt))) :=
  (sp_good h (d_of_ratio h h12 h21)).amp_C1 h hD

/-- The generated strain has no zero at any positive frequency up to the cutoff, for every symmetric mass ratio from 20/441
    (mass ratio 20) to 1/4 and all aligned spins. -/
theorem C99_strain_nonzero_spinning (Mc eta chi1 chi2 D tc phic f_ref : ℝ) (hMc : 0 < Mc) (he : 20 / 441 ≤ eta)
    (he' : eta ≤ 1 / 4) (h1 : |chi1| ≤ 1) (h2 : |chi2| ≤ 1) (hD : 0 < D) (grid : List ℝ) (j : ℕ) (hj : j < grid.length)
    (hf : 0 < grid.getD j 0)
    (hf' : grid.getD j 0 * (((Mc_eta_to_ms Mc eta).1 + (Mc_eta_to_ms Mc eta).2) * gt) ≤ 0.3) :
    (XAS.gen_IMRPhenomXAS grid [Mc, eta, chi1, chi2, D, tc, phic] f_ref).getD j 0 ≠ 0 := by
  have he0 : 0 < eta := by linarith
  have hph := thetaOf_physical (chi1 := chi1) (chi2 := chi2) hMc he0 he' h1 h2
  have hord := C02_masses_ordered Mc eta hMc he0 he'
  have hrt := congrArg Prod.snd (C01_roundtrip_Mc_eta Mc eta hMc he0 he')
  change _ = eta at hrt
  rw [← norm_ne_zero_iff, genX_norm _ _ _ _ _ _ _ _ _ _ hj]
  refine (abs_pos.2 (C99_amplitude_positive_spinning _ hph ?_ ?_ D hD _ hf hf').ne').ne'
  · change (Mc_eta_to_ms Mc eta).1 ≤ 20 * (Mc_eta_to_ms Mc eta).2
    change 0 < (Mc_eta_to_ms Mc eta).2 ∧ (Mc_eta_to_ms Mc eta).2 ≤ (Mc_eta_to_ms Mc eta).1 ∧ _ at hord
    obtain ⟨o1, o2, -⟩ := hord
    generalize (Mc_eta_to_ms Mc eta).1 = m1 at *
    generalize (Mc_eta_to_ms Mc eta).2 = m2 at *
    change m1 * m2 / (m1 + m2) ^ 2 = eta at hrt
    rw [← hrt, div_le_div_iff₀ (by norm_num) (by nlinarith)] at he
    by_contra hlt
    push Not at hlt
    nlinarith
  · change (Mc_eta_to_ms Mc eta).2 ≤ 20 * (Mc_eta_to_ms Mc eta).1
    linarith [hord.1, hord.2.1]

/-- witness: masses 60 and 3 with nearly extremal antialigned spins -/
example : (Theta.mk 60 3 (-0.99) 0.98).Physical ∧ (60 : ℝ) ≤ 20 * 3 ∧ (3 : ℝ) ≤ 20 * 60 := by
  refine ⟨⟨by norm_num, by norm_num, ?_, ?_⟩, by norm_num, by norm_num⟩ <;> norm_num [abs_le]

/-- Outside that range the property fails: for mass ratios of 10⁴ or more and a primary spin of at most -0.99 the amplitude
    below the cutoff takes arbitrarily large values of both signs, for every secondary spin, total mass and distance. -/
theorem C99_amplitude_unbounded_extreme (theta : Theta) (h : theta.Physical) (hq : 10000 * theta.m2 ≤ theta.m1)
    (hx : theta.chi1 ≤ -0.99) (D : ℝ) (hD : 0 < D) (B : ℝ) :
    (∃ f, 0 < f ∧ f * ((theta.m1 + theta.m2) * gt) < 0.3 ∧ B < Amp f theta PhenomX_amp_coeff_table D) ∧
    (∃ f, 0 < f ∧ f * ((theta.m1 + theta.m2) * gt) < 0.3 ∧ Amp f theta PhenomX_amp_coeff_table D < -B) := by
  have := amp_unbounded h (po_ins_pos h hq hx) (po_rd_neg h hq hx) hD B
  rwa [← PhenomD.Ms_eq theta] at this

/-- In terms of the generator: no bound on the strain holds for all frequencies below the cutoff. -/
theorem C99_strain_unbounded_extreme (Mc eta chi1 chi2 D tc phic f_ref : ℝ) (hMc : 0 < Mc) (he : 0 < eta)
    (he' : eta ≤ 9998 / 100000000) (h1 : -1 ≤ chi1) (h1' : chi1 ≤ -0.99) (h2 : |chi2| ≤ 1) (hD : 0 < D) (B : ℝ) :
    ∃ f, 0 < f ∧ f * (((Mc_eta_to_ms Mc eta).1 + (Mc_eta_to_ms Mc eta).2) * gt) < 0.3 ∧
      B < ‖(XAS.gen_IMRPhenomXAS [f] [Mc, eta, chi1, chi2, D, tc, phic] f_ref).getD 0 0‖ := by
  have he4 : eta ≤ 1 / 4 := by linarith
  have hc1 : |chi1| ≤ 1 := abs_le.2 ⟨h1, by norm_num at h1'; linarith⟩
  have hph := thetaOf_physical (chi1 := chi1) (chi2 := chi2) hMc he he4 hc1 h2
  have hord := C02_masses_ordered Mc eta hMc he he4
  have hrt := congrArg Prod.snd (C01_roundtrip_Mc_eta Mc eta hMc he he4)
  change _ = eta at hrt
  have hq : 10000 * (thetaOf Mc eta chi1 chi2).m2 ≤ (thetaOf Mc eta chi1 chi2).m1 := by
    change 10000 * (Mc_eta_to_ms Mc eta).2 ≤ (Mc_eta_to_ms Mc eta).1
    change 0 < (Mc_eta_to_ms Mc eta).2 ∧ (Mc_eta_to_ms Mc eta).2 ≤ (Mc_eta_to_ms Mc eta).1 ∧ _ at hord
    obtain ⟨o1, o2, -⟩ := hord
    generalize (Mc_eta_to_ms Mc eta).1 = m1 at *
    generalize (Mc_eta_to_ms Mc eta).2 = m2 at *
    change m1 * m2 / (m1 + m2) ^ 2 = eta at hrt
    rw [← hrt, div_le_div_iff₀ (by nlinarith) (by norm_num)] at he'
    by_contra hlt
    push Not at hlt
    nlinarith
  obtain ⟨⟨f, f0, f3, fB⟩, -⟩ := C99_amplitude_unbounded_extreme _ hph hq h1' D hD B
  refine ⟨f, f0, f3, ?_⟩
  rw [genX_norm [f] _ _ _ _ _ _ _ _ 0 (by simp)]
  exact lt_of_lt_of_le fB (le_abs_self _)

/-- witness: a million and ten solar masses, primary spin -0.995 -/
example : (Theta.mk 1000000 10 (-0.995) 0.3).Physical ∧ (10000 : ℝ) * 10 ≤ 1000000 ∧ (-0.995 : ℝ) ≤ -0.99 := by
  refine ⟨⟨by norm_num, by norm_num, ?_, ?_⟩, by norm_num, by norm_num⟩ <;> norm_num [abs_le]

end Ripple

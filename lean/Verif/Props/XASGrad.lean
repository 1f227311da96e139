/-
  Property C103: the IMRPhenomXAS waveform is continuously differentiable in all parameters together.
-/
import Verif.Proofs.XASGradAmp
import Verif.Proofs.XASGamma
import Verif.Props.XASPos

namespace Ripple
open scoped ContDiff Topology
open Set Filter XAS

/-! ### C103 -/

/-- The phase is continuously differentiable in frequency, masses and spins together, at every positive frequency below the
    cutoff, for all unequal masses and all aligned spins (extremal spins included). -/
theorem C103_phase (f m1 m2 chi1 chi2 : ℝ) (h1 : 0 < m1) (h2 : 0 < m2) (hne : m1 ≠ m2) (hs1 : |chi1| ≤ 1) (hs2 : |chi2| ≤ 1)
    (hf : 0 < f) (hf' : f * ((m1 + m2) * gt) < 0.3) :
    ContDiffAt ℝ 1 (fun p : Fin 5 → ℝ => Phase (p 0) ⟨p 1, p 2, p 3, p 4⟩ PhenomX_phase_coeff_table)
      ![f, m1, m2, chi1, chi2] := by
  have H : SmoothFam (fun p : Fin 5 → ℝ => Theta.mk (p 1) (p 2) (p 3) (p 4)) ![f, m1, m2, chi1, chi2] :=
    ⟨by fun_prop, by fun_prop, by fun_prop, by fun_prop, ⟨h1, h2, hs1, hs2⟩, hne⟩
  exact H.Phase_C1 (f := fun p => p 0) (by fun_prop) hf hf'

/-- The amplitude is continuously differentiable in frequency, masses, spins and distance together, at every positive
    frequency below the cutoff: for unequal masses of ratio up to 5 with any aligned spins, and of ratio up to 20 with aligned
    spins of at most 0.7 (any anti-aligned ones). -/
theorem C103_amplitude (f m1 m2 chi1 chi2 D : ℝ) (h1 : 0 < m1) (h2 : 0 < m2) (hne : m1 ≠ m2) (hs1 : |chi1| ≤ 1)
    (hs2 : |chi2| ≤ 1) (hr : (m1 ≤ 5 * m2 ∧ m2 ≤ 5 * m1) ∨ (m1 ≤ 20 * m2 ∧ m2 ≤ 20 * m1 ∧ chi1 ≤ 0.7 ∧ chi2 ≤ 0.7))
    (hD : 0 < D) (hf : 0 < f) (hf' : f * ((m1 + m2) * gt) < 0.3) :
    ContDiffAt ℝ 1 (fun p : Fin 6 → ℝ => Amp (p 0) ⟨p 1, p 2, p 3, p 4⟩ PhenomX_amp_coeff_table (p 5))
      ![f, m1, m2, chi1, chi2, D] := by
  have hph : (Theta.mk m1 m2 chi1 chi2).Physical := ⟨h1, h2, hs1, hs2⟩
  have H : SmoothFam (fun p : Fin 6 → ℝ => Theta.mk (p 1) (p 2) (p 3) (p 4)) ![f, m1, m2, chi1, chi2, D] :=
    ⟨by fun_prop, by fun_prop, by fun_prop, by fun_prop, hph, hne⟩
  have g := gt_pos
  have he : XAS.etaOf (Theta.mk m1 m2 chi1 chi2) = m1 * m2 / (m1 + m2) ^ 2 := by
    unfold XAS.etaOf
    field_simp
  have q1 : m1 ≤ 20 * m2 := by rcases hr with ⟨a, -⟩ | ⟨a, -⟩ <;> linarith
  have q2 : m2 ≤ 20 * m1 := by rcases hr with ⟨-, a⟩ | ⟨-, a, -⟩ <;> linarith
  refine H.Amp_C1 (sp_good hph (d_of_ratio hph q1 q2)) (gamma2_lt hph ?_).ne (f := fun p => p 0) (D := fun p => p 5)
    (by fun_prop) (by fun_prop) hD hf hf'
  rw [he]
  rcases hr with ⟨a, b⟩ | ⟨a, b, c, d⟩
  · left
    rw [div_le_div_iff₀ (by norm_num) (by positivity)]
    nlinarith [mul_nonneg (sub_nonneg.2 a) (sub_nonneg.2 b)]
  · right
    refine ⟨?_, c, d⟩
    rw [le_div_iff₀ (by positivity)]
    norm_num
    nlinarith [mul_nonneg (sub_nonneg.2 a) (sub_nonneg.2 b)]

/-- Without spins the same holds for every pair of unequal masses, the derivatives with respect to the spins included. -/
theorem C103_amplitude_nonspinning (f m1 m2 D : ℝ) (h1 : 0 < m1) (h2 : 0 < m2) (hne : m1 ≠ m2)
    (hD : 0 < D) (hf : 0 < f) (hf' : f * ((m1 + m2) * gt) < 0.3) :
    ContDiffAt ℝ 1 (fun p : Fin 6 → ℝ => Amp (p 0) ⟨p 1, p 2, p 3, p 4⟩ PhenomX_amp_coeff_table (p 5))
      ![f, m1, m2, 0, 0, D] := by
  have hph : (Theta.mk m1 m2 0 0).Physical := ⟨h1, h2, by simp, by simp⟩
  have H : SmoothFam (fun p : Fin 6 → ℝ => Theta.mk (p 1) (p 2) (p 3) (p 4)) ![f, m1, m2, 0, 0, D] :=
    ⟨by fun_prop, by fun_prop, by fun_prop, by fun_prop, hph, hne⟩
  refine H.Amp_C1 (ns_good hph rfl rfl) (ne_of_lt ?_) (f := fun p => p 0) (D := fun p => p 5)
    (by fun_prop) (by fun_prop) hD hf hf'
  change (ringdown_Amp_fits (Theta.mk m1 m2 0 0) PhenomX_amp_coeff_table).1 < 1
  rw [ns_gamma2 rfl rfl]
  have := ns_g2 _ (eta_box hph)
  linarith

/-- the parameters of the generator are a smooth family of binaries away from equal masses -/
lemma genX_fam {p0 : Fin 7 → ℝ} (hMc : 0 < p0 0) (he : 0 < p0 1) (he' : p0 1 < 1 / 4) (h1 : |p0 2| ≤ 1) (h2 : |p0 3| ≤ 1) :
    SmoothFam (fun p : Fin 7 → ℝ => thetaOf (p 0) (p 1) (p 2) (p 3)) p0 := by
  have M : ContDiffAt ℝ ∞ (fun p : Fin 7 → ℝ => p 0 / p 1 ^ ((3 : ℝ) / 5)) p0 :=
    ContDiffAt.div (by fun_prop) (ContDiffAt.rpow_const_of_ne (by fun_prop) he.ne') (Real.rpow_pos_of_pos he _).ne'
  have Mp : 0 < p0 0 / p0 1 ^ ((3 : ℝ) / 5) := div_pos hMc (Real.rpow_pos_of_pos he _)
  have S : ContDiffAt ℝ ∞ (fun p : Fin 7 → ℝ => √((p 0 / p 1 ^ ((3 : ℝ) / 5)) ^ 2 - 4 * (p 0 / p 1 ^ ((3 : ℝ) / 5)) ^ 2 * p 1)) p0 := by
    refine ContDiffAt.sqrt (by fun_prop) ?_
    have : 0 < (p0 0 / p0 1 ^ ((3 : ℝ) / 5)) ^ 2 * (1 - 4 * p0 1) := mul_pos (by positivity) (by linarith)
    refine ne_of_gt ?_
    linarith
  have m2 : ContDiffAt ℝ ∞ (fun p : Fin 7 → ℝ => (Mc_eta_to_ms (p 0) (p 1)).2) p0 := (M.sub S).div_const 2
  have m1 : ContDiffAt ℝ ∞ (fun p : Fin 7 → ℝ => (Mc_eta_to_ms (p 0) (p 1)).1) p0 := M.sub m2
  refine ⟨m1, m2, by unfold thetaOf; fun_prop, by unfold thetaOf; fun_prop, thetaOf_physical hMc he he'.le h1 h2, ?_⟩
  intro hh
  exact he'.ne ((C02_masses_ordered _ _ hMc he he'.le).2.2.1 hh)

lemma etaOf_thetaOf {Mc eta chi1 chi2 : ℝ} (hMc : 0 < Mc) (he : 0 < eta) (he' : eta ≤ 1 / 4) :
    XAS.etaOf (thetaOf Mc eta chi1 chi2) = eta := by
  have hrt := congrArg Prod.snd (C01_roundtrip_Mc_eta Mc eta hMc he he')
  have := gt_pos
  refine Eq.trans ?_ hrt
  change _ = (Mc_eta_to_ms Mc eta).1 * (Mc_eta_to_ms Mc eta).2 / ((Mc_eta_to_ms Mc eta).1 + (Mc_eta_to_ms Mc eta).2) ^ 2
  unfold XAS.etaOf thetaOf
  field_simp

lemma strain_C1 {p0 : Fin 7 → ℝ} (hMc : 0 < p0 0) (he : 0 < p0 1) (he' : p0 1 < 1 / 4) (h1 : |p0 2| ≤ 1) (h2 : |p0 3| ≤ 1)
    (hD : 0 < p0 4) (H : AmpGood (thetaOf (p0 0) (p0 1) (p0 2) (p0 3)))
    (hg : (ringdown_Amp_fits (thetaOf (p0 0) (p0 1) (p0 2) (p0 3)) PhenomX_amp_coeff_table).1 ≠ 1)
    {f fr : ℝ} (hf : 0 < f) (hfr : 0 < fr)
    (hf' : f * (((Mc_eta_to_ms (p0 0) (p0 1)).1 + (Mc_eta_to_ms (p0 0) (p0 1)).2) * gt) < 0.3)
    (hfr' : fr * (((Mc_eta_to_ms (p0 0) (p0 1)).1 + (Mc_eta_to_ms (p0 0) (p0 1)).2) * gt) < 0.3) :
    ContDiffAt ℝ 1 (fun p : Fin 7 → ℝ => XAS.strainAt (thetaOf (p 0) (p 1) (p 2) (p 3)) PhenomX_phase_coeff_table
      PhenomX_amp_coeff_table (p 4) (p 5) (p 6) fr f) p0 := by
  have F := genX_fam hMc he he' h1 h2
  have A := F.Amp_C1 H hg (f := fun _ => f) (D := fun p => p 4) contDiffAt_const (by fun_prop) hD hf hf'
  have P := F.psi_C1 (f := fun _ => f) (fr := fun _ => fr) (tc := fun p => p 5) (phic := fun p => p 6) contDiffAt_const
    contDiffAt_const (by fun_prop) (by fun_prop) hf hfr hf' hfr'
  unfold XAS.strainAt
  exact (Complex.ofRealCLM.contDiff.contDiffAt.comp _ A).mul
    ((contDiffAt_const.mul (Complex.ofRealCLM.contDiff.contDiffAt.comp _ P)).cexp)

/-- The generated strain is continuously differentiable in chirp mass, symmetric mass ratio, spins, distance, time and phase
    together, at every sample below the cutoff: for `5/36 ≤ eta < 1/4` (mass ratio up to 5) with any aligned spins, and for
    `20/441 ≤ eta < 1/4` (mass ratio up to 20) with aligned spins of at most 0.7 (any anti-aligned ones). -/
theorem C103_strain (Mc eta chi1 chi2 D tc phic f_ref : ℝ) (hMc : 0 < Mc) (he' : eta < 1 / 4) (h1 : |chi1| ≤ 1)
    (h2 : |chi2| ≤ 1) (hr : 5 / 36 ≤ eta ∨ (20 / 441 ≤ eta ∧ chi1 ≤ 0.7 ∧ chi2 ≤ 0.7)) (hD : 0 < D) (grid : List ℝ) (j : ℕ)
    (hj : j < grid.length) (hf : 0 < grid.getD j 0)
    (hf' : grid.getD j 0 * (((Mc_eta_to_ms Mc eta).1 + (Mc_eta_to_ms Mc eta).2) * gt) < 0.3) (hfr : 0 < f_ref)
    (hfr' : f_ref * (((Mc_eta_to_ms Mc eta).1 + (Mc_eta_to_ms Mc eta).2) * gt) < 0.3) :
    ContDiffAt ℝ 1 (fun p : Fin 7 → ℝ =>
        (XAS.gen_IMRPhenomXAS grid [p 0, p 1, p 2, p 3, p 4, p 5, p 6] f_ref).getD j 0)
      ![Mc, eta, chi1, chi2, D, tc, phic] := by
  have he20 : 20 / 441 ≤ eta := by rcases hr with h | ⟨h, -⟩ <;> linarith
  have he : 0 < eta := by linarith
  have hph := thetaOf_physical (chi1 := chi1) (chi2 := chi2) hMc he he'.le h1 h2
  have hE := etaOf_thetaOf (chi1 := chi1) (chi2 := chi2) hMc he he'.le
  simp only [genX_eq, PhenomD.map_getElem hj]
  refine strain_C1 (p0 := ![Mc, eta, chi1, chi2, D, tc, phic]) hMc he he' h1 h2 hD (sp_good hph ?_)
    (gamma2_lt hph ?_).ne hf hfr hf' hfr'
  · obtain ⟨d0, -, hd⟩ := dOf_range hph
    rw [hE] at hd
    change dOf (thetaOf Mc eta chi1 chi2) ≤ 0.905
    norm_num
    nlinarith
  · rw [hE]
    rcases hr with h | ⟨h, a, b⟩
    · exact Or.inl h
    · exact Or.inr ⟨by norm_num; linarith, a, b⟩

/-- At zero spins the same holds for every symmetric mass ratio below 1/4, the derivatives with respect to the spins
    included. -/
theorem C103_strain_nonspinning (Mc eta D tc phic f_ref : ℝ) (hMc : 0 < Mc) (he : 0 < eta) (he' : eta < 1 / 4)
    (hD : 0 < D) (grid : List ℝ) (j : ℕ) (hj : j < grid.length) (hf : 0 < grid.getD j 0)
    (hf' : grid.getD j 0 * (((Mc_eta_to_ms Mc eta).1 + (Mc_eta_to_ms Mc eta).2) * gt) < 0.3) (hfr : 0 < f_ref)
    (hfr' : f_ref * (((Mc_eta_to_ms Mc eta).1 + (Mc_eta_to_ms Mc eta).2) * gt) < 0.3) :
    ContDiffAt ℝ 1 (fun p : Fin 7 → ℝ =>
        (XAS.gen_IMRPhenomXAS grid [p 0, p 1, p 2, p 3, p 4, p 5, p 6] f_ref).getD j 0)
      ![Mc, eta, 0, 0, D, tc, phic] := by
  have hph := thetaOf_physical (chi1 := 0) (chi2 := 0) hMc he he'.le (by simp) (by simp)
  simp only [genX_eq, PhenomD.map_getElem hj]
  refine strain_C1 (p0 := ![Mc, eta, 0, 0, D, tc, phic]) hMc he he' (by simp) (by simp) hD
    (ns_good hph rfl rfl) (ne_of_lt ?_) hf hfr hf' hfr'
  change (ringdown_Amp_fits (thetaOf Mc eta 0 0) PhenomX_amp_coeff_table).1 < 1
  rw [ns_gamma2 rfl rfl]
  have := ns_g2 _ (eta_box hph)
  linarith

/-- The same for both polarisations, with the inclination as eighth parameter. -/
theorem C103_polarisations (Mc eta chi1 chi2 D tc phic iota f_ref : ℝ) (hMc : 0 < Mc) (he' : eta < 1 / 4) (h1 : |chi1| ≤ 1)
    (h2 : |chi2| ≤ 1) (hr : 5 / 36 ≤ eta ∨ (20 / 441 ≤ eta ∧ chi1 ≤ 0.7 ∧ chi2 ≤ 0.7)) (hD : 0 < D) (grid : List ℝ) (j : ℕ)
    (hj : j < grid.length) (hf : 0 < grid.getD j 0)
    (hf' : grid.getD j 0 * (((Mc_eta_to_ms Mc eta).1 + (Mc_eta_to_ms Mc eta).2) * gt) < 0.3) (hfr : 0 < f_ref)
    (hfr' : f_ref * (((Mc_eta_to_ms Mc eta).1 + (Mc_eta_to_ms Mc eta).2) * gt) < 0.3) :
    ContDiffAt ℝ 1 (fun p : Fin 8 → ℝ =>
        (XAS.gen_IMRPhenomXAS_hphc grid [p 0, p 1, p 2, p 3, p 4, p 5, p 6, p 7] f_ref).1.getD j 0)
      ![Mc, eta, chi1, chi2, D, tc, phic, iota] ∧
    ContDiffAt ℝ 1 (fun p : Fin 8 → ℝ =>
        (XAS.gen_IMRPhenomXAS_hphc grid [p 0, p 1, p 2, p 3, p 4, p 5, p 6, p 7] f_ref).2.getD j 0)
      ![Mc, eta, chi1, chi2, D, tc, phic, iota] := by
  have S := C103_strain Mc eta chi1 chi2 D tc phic f_ref hMc he' h1 h2 hr hD grid j hj hf hf' hfr hfr'
  have hl : ∀ p : Fin 8 → ℝ, j < (XAS.gen_IMRPhenomXAS grid [p 0, p 1, p 2, p 3, p 4, p 5, p 6] f_ref).length := by
    intro p
    rw [genX_eq]
    simpa using hj
  have hm : ∀ (g : ℂ → ℂ) (l : List ℂ), j < l.length → (l.map g).getD j 0 = g (l.getD j 0) := by
    intro g l hl
    rw [List.getD_eq_getElem _ _ (by simpa using hl), List.getD_eq_getElem _ _ hl]
    simp
  have T : ContDiffAt ℝ 1 (fun p : Fin 8 → ℝ =>
      (XAS.gen_IMRPhenomXAS grid [p 0, p 1, p 2, p 3, p 4, p 5, p 6] f_ref).getD j 0)
      ![Mc, eta, chi1, chi2, D, tc, phic, iota] :=
    ContDiffAt.comp (f := fun p : Fin 8 → ℝ => ![p 0, p 1, p 2, p 3, p 4, p 5, p 6])
      ![Mc, eta, chi1, chi2, D, tc, phic, iota] S
      (contDiffAt_pi.2 fun i => by fin_cases i <;> simp <;> fun_prop)
  have c : ContDiffAt ℝ 1 (fun p : Fin 8 → ℝ => Real.cos (p 7)) ![Mc, eta, chi1, chi2, D, tc, phic, iota] := by fun_prop
  constructor
  · simp only [C35_XAS, hm _ _ (hl _)]
    exact (Complex.ofRealCLM.contDiff.contDiffAt.comp _ ((contDiffAt_const.add (c.pow 2)).div_const 2)).mul T
  · simp only [C35_XAS, hm _ _ (hl _)]
    exact ((contDiffAt_const.mul T).mul (Complex.ofRealCLM.contDiff.contDiffAt.comp _ c)).neg

/-- The restriction to unequal masses comes from the conversion of the parameters: at `eta = 1/4` the component masses have no
    one-sided derivative with respect to `eta`, whatever the chirp mass. -/
theorem C103_masses_not_differentiable_at_equal_mass (Mc : ℝ) (hMc : 0 < Mc) :
    ¬ DifferentiableWithinAt ℝ (fun eta => (Mc_eta_to_ms Mc eta).1) (Iic (1 / 4)) (1 / 4) ∧
    ¬ DifferentiableWithinAt ℝ (fun eta => (Mc_eta_to_ms Mc eta).2) (Iic (1 / 4)) (1 / 4) := by
  have hMd : DifferentiableAt ℝ (fun eta : ℝ => Mc / eta ^ ((3 : ℝ) / 5)) (1 / 4) :=
    (differentiableAt_const _).div ((differentiableAt_id).rpow_const (Or.inl (by norm_num)))
      (Real.rpow_pos_of_pos (by norm_num) _).ne'
  have hM0 : 0 < Mc / (1 / 4 : ℝ) ^ ((3 : ℝ) / 5) := div_pos hMc (Real.rpow_pos_of_pos (by norm_num) _)
  have ev : ∀ᶠ eta in 𝓝[Iic (1 / 4)] (1 / 4 : ℝ), 0 < eta ∧ eta ≤ 1 / 4 :=
    ((lt_mem_nhds (by norm_num : (0 : ℝ) < 1 / 4)).filter_mono nhdsWithin_le_nhds).and self_mem_nhdsWithin
  have key : ¬ DifferentiableWithinAt ℝ (fun eta : ℝ => √(1 - 4 * eta)) (Iic (1 / 4)) (1 / 4) := by
    intro h
    have a := h.hasDerivWithinAt.mul h.hasDerivWithinAt
    have b : HasDerivWithinAt (fun eta : ℝ => 1 - 4 * eta) (-4) (Iic (1 / 4)) (1 / 4) := by
      simpa using ((hasDerivAt_id (1 / 4 : ℝ)).const_mul 4).const_sub 1 |>.hasDerivWithinAt
    have c := a.congr_of_eventuallyEq (f₁ := fun eta : ℝ => 1 - 4 * eta)
      (ev.mono fun x hx => (Real.mul_self_sqrt (by linarith [hx.2])).symm) (by norm_num)
    have := (uniqueDiffOn_Iic _ _ self_mem_Iic).eq_deriv _ b c
    norm_num at this
  constructor
  · intro h
    refine key (DifferentiableWithinAt.congr_of_eventuallyEq
      (((h.const_mul 2).div hMd.differentiableWithinAt hM0.ne').sub_const 1) (ev.mono fun x hx => ?_) ?_)
    · have := Real.rpow_pos_of_pos hx.1 ((3 : ℝ) / 5)
      simp only [Pi.div_apply, Mc_eta_to_ms_eq hMc hx.1]
      field_simp
      ring
    · simp only [Pi.div_apply, Mc_eta_to_ms_eq hMc (by norm_num : (0 : ℝ) < 1 / 4)]
      field_simp
      ring
  · intro h
    refine key (DifferentiableWithinAt.congr_of_eventuallyEq
      (((h.const_mul 2).div hMd.differentiableWithinAt hM0.ne').const_sub 1) (ev.mono fun x hx => ?_) ?_)
    · have := Real.rpow_pos_of_pos hx.1 ((3 : ℝ) / 5)
      simp only [Pi.div_apply, Mc_eta_to_ms_eq hMc hx.1]
      field_simp
      ring
    · simp only [Pi.div_apply, Mc_eta_to_ms_eq hMc (by norm_num : (0 : ℝ) < 1 / 4)]
      field_simp
      ring

/-- witness: masses 36 and 29 (unequal, ratio below 5) with spins 1 and -1 at 100 Hz -/
example : (36 : ℝ) ≠ 29 ∧ (36 : ℝ) ≤ 5 * 29 ∧ |(1 : ℝ)| ≤ 1 ∧ |(-1 : ℝ)| ≤ 1 ∧ (100 : ℝ) * ((36 + 29) * gt) < 0.3 := by
  refine ⟨by norm_num, by norm_num, by norm_num, by norm_num, ?_⟩
  have : gt < 0.000005 := by unfold gt G MSUN C; norm_num
  linarith

end Ripple

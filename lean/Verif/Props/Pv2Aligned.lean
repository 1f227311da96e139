/-
  Property theorems C59, C86: PhenomPv2 without in-plane spins against PhenomD.
-/
import Verif.Proofs.Pv2Aligned
import Verif.Props.Pv2
import Verif.Props.PhenomDGen

namespace Ripple
open Pv2 V3 PhenomD

lemma Jz_eq {m1 m2 f_ref : ℝ} (h1 : 0 < m1) (h2 : 0 < m2) (s1 s2 : V3) :
    (totalJ gt m2 m1 f_ref s2 s1).2.2 = (m1 + m2) ^ 2 * LplusS m1 m2 s1 s2 f_ref := by
  simp only [totalJ, LplusS, orbitalL, vOf]
  rw [add_comm m2 m1, mul_comm m2 m1]
  field_simp
  ring

section
variable (Q : QNM) (grid : List ℝ) (Mc eta chi1 chi2 D tc phiRef incl f_ref : ℝ)

/-- the larger and smaller mass -/
noncomputable abbrev mHeavy (Mc eta : ℝ) : ℝ := (Mc_eta_to_ms Mc eta).1
noncomputable abbrev mLight (Mc eta : ℝ) : ℝ := (Mc_eta_to_ms Mc eta).2

lemma hphc_aligned :
    gen_IMRPhenomPv2_hphc Q grid [Mc, eta, 0, 0, chi1, 0, 0, chi2, D, tc, phiRef, incl] f_ref =
      gen_IMRPhenomPv2 Q grid (pars (mHeavy Mc eta) (mLight Mc eta) (0, 0, chi1) (0, 0, chi2) D tc phiRef incl) f_ref :=
  C61_masses Q grid (0, 0, chi1) (0, 0, chi2) D tc phiRef incl f_ref Mc eta []

/-- the two polarisations without in-plane spins, samplewise -/
lemma aligned_samples (hMc : 0 < Mc) (he : 0 < eta) (he' : eta ≤ 1 / 4) (hf : 0 < f_ref)
    (hL : LplusS (mHeavy Mc eta) (mLight Mc eta) (0, 0, chi1) (0, 0, chi2) f_ref ≠ 0) :
    let th := thetaOf Mc eta chi1 chi2
    let L := LplusS (mHeavy Mc eta) (mLight Mc eta) (0, 0, chi1) (0, 0, chi2) f_ref
    let x := L / |L| * Real.cos incl
    let c := frameP (mHeavy Mc eta) (mLight Mc eta) (0, 0, chi1) (0, 0, chi2) f_ref phiRef incl
    ∃ K : ℝ → ℂ, (∀ f, K f = corrP Q (mHeavy Mc eta) (mLight Mc eta) (0, 0, chi1) (0, 0, chi2) 0 tc f) ∧
      (Real.sin incl ≠ 0 → Real.cos (2 * c.zeta_polariz) = -1 ∧ Real.sin (2 * c.zeta_polariz) = 0) ∧
      let h := fun f : ℝ => (ampAt th (get_coeffs th) (tfOf Q th) D (cutThr grid (fCut th)) f : ℂ)
        * Complex.exp (-Complex.I * ((Phase f th (get_coeffs th) (tfOf Q th) : ℝ) : ℂ)) * K f
      gen_IMRPhenomPv2_hphc Q grid [Mc, eta, 0, 0, chi1, 0, 0, chi2, D, tc, phiRef, incl] f_ref =
        .ok (grid.map fun f => (rotP c.zeta_polariz
              ((((1 + x ^ 2) / 2 : ℝ) : ℂ) * h f, -(Complex.I * h f * (x : ℂ)))).1,
            grid.map fun f => (rotP c.zeta_polariz
              ((((1 + x ^ 2) / 2 : ℝ) : ℂ) * h f, -(Complex.I * h f * (x : ℂ)))).2) := by
  intro th L x c
  obtain ⟨h2, h12, -⟩ := C02_masses_ordered Mc eta hMc he he'
  have h1 : 0 < mHeavy Mc eta := lt_of_lt_of_le h2 h12
  have hJz := Jz_eq (f_ref := f_ref) h1 h2 (0, 0, chi1) (0, 0, chi2)
  have hM : 0 < (mHeavy Mc eta + mLight Mc eta) ^ 2 := by
    have : 0 < mHeavy Mc eta + mLight Mc eta := by linarith
    positivity
  obtain ⟨hchip, hal, hph, hth, hz⟩ := aligned_frame (f_ref := f_ref) h2 h1 hf phiRef incl chi2 chi1
    (by rw [hJz]; exact mul_ne_zero hM.ne' hL)
  rw [hJz, abs_mul, abs_of_pos hM, mul_div_mul_left _ _ hM.ne'] at hth
  refine ⟨fun f => _, fun f => rfl, hz, ?_⟩
  intro h
  rw [hphc_aligned, genP_eq]
  have hcut : fM_CUT / Ms (thetaP (mHeavy Mc eta) (mLight Mc eta) (0, 0, chi1) (0, 0, chi2)) = fCut th :=
    (fCut_eq _).symm
  have htf : tfP Q (mHeavy Mc eta) (mLight Mc eta) (0, 0, chi1) (0, 0, chi2) 0 = tfOf Q th :=
    tfP_aligned Q h2 h12 (0, 0, chi1) (0, 0, chi2)
  congr 2
  all_goals
    refine List.map_congr_left fun f _ => ?_
    rw [twP_aligned Q _ _ _ _ D tc f_ref _ _ f hchip hal hph, hth, hcut, htf]
    rfl

lemma norm_strainAt (theta : Theta) (coeffs : Fin 19 → ℝ) (tf : TransFreqs) (D tc phic f_ref thr x : ℝ) :
    ‖strainAt theta coeffs tf D tc phic f_ref thr x‖ = |ampAt theta coeffs tf D thr x| := by
  unfold strainAt
  rw [norm_mul, mul_comm Complex.I, Complex.norm_exp_ofReal_mul_I, Complex.norm_real, mul_one, Real.norm_eq_abs]

lemma sign_sq {L : ℝ} (h : L ≠ 0) : (L / |L|) ^ 2 = 1 := by
  rw [div_pow, sq_abs, div_self (pow_ne_zero 2 h)]

/-! ### C59: aligned-spin limit -/

/-- Without in-plane spins the moduli of both polarisations are those of PhenomD with the same parameters, at every
    inclination and every positive frequency, cut or not, and whatever the time, phase and reference frequency given to
    either model. -/
theorem C59_moduli (hMc : 0 < Mc) (he : 0 < eta) (he' : eta ≤ 1 / 4) (hf : 0 < f_ref)
    (hL : LplusS (mHeavy Mc eta) (mLight Mc eta) (0, 0, chi1) (0, 0, chi2) f_ref ≠ 0) (tcD phicD f_refD : ℝ) :
    let hD := gen_IMRPhenomD_hphc Q grid [Mc, eta, chi1, chi2, D, tcD, phicD, incl] f_refD
    ∃ hp hc, gen_IMRPhenomPv2_hphc Q grid [Mc, eta, 0, 0, chi1, 0, 0, chi2, D, tc, phiRef, incl] f_ref = .ok (hp, hc) ∧
      hp.length = grid.length ∧ hc.length = grid.length ∧
      ∀ j, j < grid.length → 0 < grid.getD j 0 →
        LplusS (mHeavy Mc eta) (mLight Mc eta) (0, 0, chi1) (0, 0, chi2) (grid.getD j 0) ≠ 0 →
        ‖hp.getD j 0‖ = ‖hD.1.getD j 0‖ ∧ ‖hc.getD j 0‖ = ‖hD.2.getD j 0‖ := by
  intro hD
  obtain ⟨K, hK, hz, hgen⟩ := aligned_samples Q grid Mc eta chi1 chi2 D tc phiRef incl f_ref hMc he he' hf hL
  refine ⟨_, _, hgen, by simp, by simp, fun j hj _ _ => ?_⟩
  set f := grid.getD j 0 with hfj
  have hDd : hD = _ := C35_D Q Mc eta chi1 chi2 D tcD phicD f_refD grid incl
  rw [hDd, genD_eq, List.map_map, List.map_map, map_getElem hj, map_getElem hj, map_getElem hj, map_getElem hj, ← hfj]
  have hKn : ‖K f‖ = 1 := by rw [hK]; exact norm_corr _ _ _ _ _ _ _ _
  simp only [Function.comp, norm_mul, norm_neg, Complex.norm_I, one_mul, norm_strainAt]
  set z := (frameP (mHeavy Mc eta) (mLight Mc eta) (0, 0, chi1) (0, 0, chi2) f_ref phiRef incl).zeta_polariz with hzd
  set A := ampAt (thetaOf Mc eta chi1 chi2) (get_coeffs (thetaOf Mc eta chi1 chi2)) (tfOf Q (thetaOf Mc eta chi1 chi2)) D
    (cutThr grid (fCut (thetaOf Mc eta chi1 chi2))) f with hA
  set L := LplusS (mHeavy Mc eta) (mLight Mc eta) (0, 0, chi1) (0, 0, chi2) f_ref with hLd
  have hss := sign_sq hL
  set E := Complex.exp (-Complex.I * ((Phase f (thetaOf Mc eta chi1 chi2) (get_coeffs (thetaOf Mc eta chi1 chi2))
    (tfOf Q (thetaOf Mc eta chi1 chi2)) : ℝ) : ℂ)) with hE
  have hEn : ‖E‖ = 1 := by
    rw [hE, show ∀ y : ℝ, -Complex.I * (y : ℂ) = ((-y : ℝ) : ℂ) * Complex.I from fun y => by push_cast; ring]
    exact Complex.norm_exp_ofReal_mul_I _
  have hsg : abs (L / |L|) = 1 := by rw [abs_div, abs_abs, div_self (abs_ne_zero.2 hL)]
  generalize L / |L| = sg at *
  clear_value A E f z
  by_cases hs : Real.sin incl = 0
  · -- face on
    have hc1 : Real.cos incl ^ 2 = 1 := by
      have := Real.sin_sq_add_cos_sq incl; rw [hs] at this; linarith
    have hca : |Real.cos incl| = 1 := by
      have h := sq_abs (Real.cos incl); rw [hc1] at h
      exact (pow_eq_one_iff_of_nonneg (abs_nonneg _) two_ne_zero).1 h
    set x := sg * Real.cos incl with hx
    have hx2 : x ^ 2 = 1 := by rw [hx, mul_pow, hss, hc1, one_mul]
    have hxa : |x| = 1 := by rw [hx, abs_mul, hca, hsg, one_mul]
    have hx2c : (x : ℂ) ^ 2 = 1 := by exact_mod_cast hx2
    have hI : Complex.I ^ 2 = -1 := Complex.I_sq
    have hrn : ‖(((Real.cos (2 * z) : ℝ) : ℂ) - Complex.I * ((x * Real.sin (2 * z) : ℝ) : ℂ))‖ = 1 := by
      have hsq : ‖(((Real.cos (2 * z) : ℝ) : ℂ) - Complex.I * ((x * Real.sin (2 * z) : ℝ) : ℂ))‖ ^ 2 = 1 := by
        rw [Complex.sq_norm, Complex.normSq_apply]
        simp only [Complex.sub_re, Complex.sub_im, Complex.mul_re, Complex.mul_im, Complex.ofReal_re, Complex.ofReal_im,
          Complex.I_re, Complex.I_im]
        linear_combination Real.sin (2 * z) ^ 2 * hx2 + Real.sin_sq_add_cos_sq (2 * z)
      exact (pow_eq_one_iff_of_nonneg (norm_nonneg _) two_ne_zero).1 hsq
    have p1 : (rotP z ((((1 + x ^ 2) / 2 : ℝ) : ℂ) * (A * E * K f), -(Complex.I * (A * E * K f) * (x : ℂ)))).1 =
        (((Real.cos (2 * z) : ℝ) : ℂ) - Complex.I * ((x * Real.sin (2 * z) : ℝ) : ℂ)) * (A * E * K f) := by
      simp only [rotP]
      rw [hx2]
      push_cast
      ring
    have p2 : (rotP z ((((1 + x ^ 2) / 2 : ℝ) : ℂ) * (A * E * K f), -(Complex.I * (A * E * K f) * (x : ℂ)))).2 =
        -Complex.I * x * ((((Real.cos (2 * z) : ℝ) : ℂ) - Complex.I * ((x * Real.sin (2 * z) : ℝ) : ℂ)) * (A * E * K f)) := by
      simp only [rotP]
      rw [hx2]
      push_cast
      linear_combination (Complex.sin (2 * z) * (A * E * K f)) * (hx2c - (x : ℂ) ^ 2 * hI)
    rw [p1, p2]
    simp only [norm_mul, hrn, hEn, hKn, Complex.norm_real, Real.norm_eq_abs, norm_neg, Complex.norm_I, hxa, hca, hc1]
    norm_num
  · obtain ⟨hz1, hz2⟩ := hz hs
    simp only [rotP, hz1, hz2]
    have e : (sg * Real.cos incl) ^ 2 = Real.cos incl ^ 2 := by rw [mul_pow, hss, one_mul]
    rw [e]
    simp only [Complex.ofReal_zero, zero_mul, add_zero, sub_zero, Complex.ofReal_neg, Complex.ofReal_one, norm_mul, norm_neg,
      norm_one, one_mul, Complex.norm_real, Complex.norm_I, hEn, hKn, mul_one, Real.norm_eq_abs, hsg]
    trivial

/-- Without in-plane spins, for an inclined binary whose total angular momentum is along the orbital one, and a grid
    below the cutoff, the PhenomPv2 waveform is the PhenomD waveform up to one overall time and phase shift. -/
theorem C59_waveform (hMc : 0 < Mc) (he : 0 < eta) (he' : eta ≤ 1 / 4) (hf : 0 < f_ref)
    (hL : 0 < LplusS (mHeavy Mc eta) (mLight Mc eta) (0, 0, chi1) (0, 0, chi2) f_ref) (hs : Real.sin incl ≠ 0)
    (hne : grid ≠ []) (hcut : ∀ x ∈ grid, x < fCut (thetaOf Mc eta chi1 chi2)) (tcD phicD f_refD : ℝ) :
    let hD := gen_IMRPhenomD_hphc Q grid [Mc, eta, chi1, chi2, D, tcD, phicD, incl] f_refD
    ∃ hp hc, gen_IMRPhenomPv2_hphc Q grid [Mc, eta, 0, 0, chi1, 0, 0, chi2, D, tc, phiRef, incl] f_ref = .ok (hp, hc) ∧
      ∃ phi tau : ℝ, ∀ j, j < grid.length → 0 < grid.getD j 0 →
        LplusS (mHeavy Mc eta) (mLight Mc eta) (0, 0, chi1) (0, 0, chi2) (grid.getD j 0) ≠ 0 →
        hp.getD j 0 = Complex.exp (Complex.I * ((phi + tau * grid.getD j 0 : ℝ) : ℂ)) * hD.1.getD j 0 ∧
        hc.getD j 0 = Complex.exp (Complex.I * ((phi + tau * grid.getD j 0 : ℝ) : ℂ)) * hD.2.getD j 0 := by
  intro hD
  obtain ⟨K, hK, hz, hgen⟩ := aligned_samples Q grid Mc eta chi1 chi2 D tc phiRef incl f_ref hMc he he' hf hL.ne'
  refine ⟨_, _, hgen, ?_⟩
  set th := thetaOf Mc eta chi1 chi2 with hth
  obtain ⟨hz1, hz2⟩ := hz hs
  set t0 := t0P Q (mHeavy Mc eta) (mLight Mc eta) (0, 0, chi1) (0, 0, chi2) 0 with ht0
  set tD := deriv (fun y => get_IIb_raw_phase y th (get_coeffs th) (tfOf Q th).f_RD (tfOf Q th).f_damp) ((tfOf Q th).f4 * Ms th)
    with htD
  refine ⟨Real.pi + tD * f_refD * Ms th - Phase f_refD th (get_coeffs th) (tfOf Q th) - 2 * phicD,
    -(2 * PI * t0) - (mLight Mc eta + mHeavy Mc eta) * gt * tc - tD * Ms th + 2 * PI * tcD, fun j hj _ _ => ?_⟩
  have hmem : grid.getD j 0 ∈ grid := by rw [List.getD_eq_getElem _ _ hj]; exact List.getElem_mem hj
  have hlast : grid.getD (grid.length - 1) 0 < fCut th := by
    apply hcut
    have : grid.length - 1 < grid.length := by have := List.length_pos_of_ne_nil hne; omega
    rw [List.getD_eq_getElem _ _ this]; exact List.getElem_mem this
  have hDd : hD = _ := C35_D Q Mc eta chi1 chi2 D tcD phicD f_refD grid incl
  rw [hDd, genD_eq, List.map_map, List.map_map, map_getElem hj, map_getElem hj, map_getElem hj, map_getElem hj]
  have hfc := hcut _ hmem
  set f := grid.getD j 0 with hfj
  simp only [Function.comp]
  rw [cutThr_uncut hne hlast, strainAt_below hfc, ← hth, abs_of_pos hL, div_self hL.ne', one_mul, hK f]
  generalize ampAt th (get_coeffs th) (tfOf Q th) D (fCut th) f = A
  have hcorr : corrP Q (mHeavy Mc eta) (mLight Mc eta) (0, 0, chi1) (0, 0, chi2) 0 tc f =
      Complex.exp (Complex.I * ((-(2 * PI * t0 * f) - (mLight Mc eta + mHeavy Mc eta) * gt * tc * f : ℝ) : ℂ)) := by
    unfold corrP
    rw [← ht0, show ((Real.cos (2 * PI * f * t0) : ℝ) : ℂ) - Complex.I * ((Real.sin (2 * PI * f * t0) : ℝ) : ℂ) =
      Complex.exp (((-(2 * PI * f * t0) : ℝ) : ℂ) * Complex.I) by
        rw [Complex.exp_mul_I, ← Complex.ofReal_cos, ← Complex.ofReal_sin, Real.cos_neg, Real.sin_neg]; push_cast; ring,
      ← Complex.exp_add]
    congr 1
    push_cast
    ring
  have hpsi : psiAt th (get_coeffs th) (tfOf Q th) tcD phicD f_refD f =
      Phase f th (get_coeffs th) (tfOf Q th) - (tD * (f * Ms th - f_refD * Ms th) + Phase f_refD th (get_coeffs th) (tfOf Q th))
        + (2 * PI * f * tcD - 2 * phicD) := rfl
  rw [hcorr, hpsi]
  generalize hP : Phase f th (get_coeffs th) (tfOf Q th) = P
  generalize hP0 : Phase f_refD th (get_coeffs th) (tfOf Q th) = P0
  have key : -(Complex.exp (-Complex.I * (P : ℂ)) *
      Complex.exp (Complex.I * ((-(2 * PI * t0 * f) - (mLight Mc eta + mHeavy Mc eta) * gt * tc * f : ℝ) : ℂ))) =
      Complex.exp (Complex.I * ((Real.pi + tD * f_refD * Ms th - P0 - 2 * phicD
        + (-(2 * PI * t0) - (mLight Mc eta + mHeavy Mc eta) * gt * tc - tD * Ms th + 2 * PI * tcD) * f : ℝ) : ℂ)) *
      Complex.exp (Complex.I * ((-(P - (tD * (f * Ms th - f_refD * Ms th) + P0) + (2 * PI * f * tcD - 2 * phicD)) : ℝ) : ℂ)) := by
    rw [← Complex.exp_add, ← Complex.exp_add, ← neg_one_mul, ← Complex.exp_pi_mul_I, ← Complex.exp_add]
    congr 1
    push_cast
    ring
  simp only [rotP]
  rw [hz1, hz2]
  constructor
  · push_cast
    push_cast at key
    linear_combination ((1 + Complex.cos incl ^ 2) / 2 * A) * key
  · push_cast
    push_cast at key
    linear_combination (-(Complex.I * A * Complex.cos incl)) * key

/-! ### C86: the reference phase of an aligned-spin binary -/

/-- Without in-plane spins and with an inclined line of sight, the reference phase has no effect at all on the
    PhenomPv2 waveform (PhenomD multiplies the waveform by `exp(2 i phic)`, see C31). -/
theorem C86_phase_ignored (hMc : 0 < Mc) (he : 0 < eta) (he' : eta ≤ 1 / 4) (hf : 0 < f_ref)
    (hL : LplusS (mHeavy Mc eta) (mLight Mc eta) (0, 0, chi1) (0, 0, chi2) f_ref ≠ 0) (hs : Real.sin incl ≠ 0)
    (phiRef' : ℝ) :
    gen_IMRPhenomPv2_hphc Q grid [Mc, eta, 0, 0, chi1, 0, 0, chi2, D, tc, phiRef, incl] f_ref =
      gen_IMRPhenomPv2_hphc Q grid [Mc, eta, 0, 0, chi1, 0, 0, chi2, D, tc, phiRef', incl] f_ref := by
  obtain ⟨K, hK, hz, hgen⟩ := aligned_samples Q grid Mc eta chi1 chi2 D tc phiRef incl f_ref hMc he he' hf hL
  obtain ⟨K', hK', hz', hgen'⟩ := aligned_samples Q grid Mc eta chi1 chi2 D tc phiRef' incl f_ref hMc he he' hf hL
  rw [hgen, hgen']
  obtain ⟨z1, z2⟩ := hz hs
  obtain ⟨z1', z2'⟩ := hz' hs
  have : K = K' := funext fun f => (hK f).trans (hK' f).symm
  simp only [rotP, z1, z2, z1', z2', this]

end

/-- the hypotheses are met -/
example : 0 < LplusS (mHeavy 20 0.2) (mLight 20 0.2) (0, 0, 0.3) (0, 0, 0.1) 20 := by
  obtain ⟨h2, h12, -⟩ := C02_masses_ordered 20 0.2 (by norm_num) (by norm_num) (by norm_num)
  have h1 : 0 < mHeavy 20 0.2 := lt_of_lt_of_le h2 h12
  have h2 : 0 < mLight 20 0.2 := h2
  generalize mHeavy 20 0.2 = m1 at *
  generalize mLight 20 0.2 = m2 at *
  have hv : 0 < vOf m1 m2 20 := by
    have := gt_pos; have := Real.pi_pos; unfold vOf; positivity
  have heta : m1 * m2 / (m1 + m2) ^ 2 ≤ 1 / 4 := by
    rw [div_le_iff₀ (by positivity)]; nlinarith [sq_nonneg (m1 - m2)]
  have heta0 : 0 < m1 * m2 / (m1 + m2) ^ 2 := by positivity
  unfold LplusS orbitalL
  generalize m1 * m2 / (m1 + m2) ^ 2 = e at *
  generalize vOf m1 m2 20 = v at *
  have a2 : 0 ≤ (27 / 8 - 19 * e / 8 - e ^ 2 / 24) * v ^ 4 := mul_nonneg (by nlinarith) (by positivity)
  have a1 : 0 ≤ (3 / 2 + e / 6) * v ^ 2 := by positivity
  have : 0 < 1 ^ 2 * e / v * (1 + (3 / 2 + e / 6) * v ^ 2 + (27 / 8 - 19 * e / 8 - e ^ 2 / 24) * v ^ 4) :=
    mul_pos (by positivity) (by linarith)
  have b : (0 : ℝ) < (m1 ^ 2 * 0.3 + m2 ^ 2 * 0.1) / (m1 + m2) ^ 2 := by positivity
  simp only [] at b ⊢
  linarith

end Ripple

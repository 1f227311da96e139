/-
  Property C105: the waveforms with tides are continuously differentiable in all parameters together.
-/
import Verif.Proofs.TidalSmooth
import Verif.Props.PhenomDGrad

namespace Ripple
open scoped ContDiff Topology
open Set Filter PhenomD Tidal TaylorF2 NRTidalv2

/-- the two deformabilities used by a generator: the ones given, or those computed from the two tilde combinations -/
noncomputable def lambdasOf (b : Bool) (Mc eta l1 l2 : ℝ) : ℝ × ℝ :=
  if b then lambda_tildes_to_lambdas l1 l2 (Mc_eta_to_ms Mc eta).1 (Mc_eta_to_ms Mc eta).2 else (l1, l2)

/-- the parameters of the generators with tides are a smooth family -/
lemma genT_fam (b : Bool) {p0 : Fin 9 → ℝ} (hMc : 0 < p0 0) (he : 0 < p0 1) (he' : p0 1 < 1 / 4) (h1 : |p0 2| ≤ 1)
    (h2 : |p0 3| ≤ 1) (hb : b = true → p0 1 ≠ Spec.etaSingular)
    (hl1 : (lambdasOf b (p0 0) (p0 1) (p0 4) (p0 5)).1 ≠ 1) (hl2 : (lambdasOf b (p0 0) (p0 1) (p0 4) (p0 5)).2 ≠ 1) :
    TFam (fun p : Fin 9 → ℝ => thetaTOf (p 0) (p 1) (p 2) (p 3) (p 4) (p 5) b) p0 := by
  have F := genX_fam (p0 := ![p0 0, p0 1, p0 2, p0 3, 0, 0, 0]) hMc he he' h1 h2
  have L : ContDiffAt ℝ ∞ (fun p : Fin 9 → ℝ => (![p 0, p 1, p 2, p 3, 0, 0, 0] : Fin 7 → ℝ)) p0 :=
    contDiffAt_pi.2 fun i => by fin_cases i <;> simp <;> fun_prop
  have m1 : ContDiffAt ℝ ∞ (fun p : Fin 9 → ℝ => (Mc_eta_to_ms (p 0) (p 1)).1) p0 := 
    ContDiffAt.comp (g := fun e : Fin 7 → ℝ => (thetaOf (e 0) (e 1) (e 2) (e 3)).m1) p0 F.m1 L
  have m2 : ContDiffAt ℝ ∞ (fun p : Fin 9 → ℝ => (Mc_eta_to_ms (p 0) (p 1)).2) p0 := 
    ContDiffAt.comp (g := fun e : Fin 7 → ℝ => (thetaOf (e 0) (e 1) (e 2) (e 3)).m2) p0 F.m2 L
  have c1 : ContDiffAt ℝ ∞ (fun p : Fin 9 → ℝ => p 2) p0 := by fun_prop
  have c2 : ContDiffAt ℝ ∞ (fun p : Fin 9 → ℝ => p 3) p0 := by fun_prop
  have B : XAS.SmoothFam (fun p : Fin 9 → ℝ => bbh (thetaTOf (p 0) (p 1) (p 2) (p 3) (p 4) (p 5) b)) p0 :=
    ⟨m1, m2, c1, c2, F.phys, F.ne⟩
  have hl : ContDiffAt ℝ ∞ (fun p : Fin 9 → ℝ => (lambdasOf b (p 0) (p 1) (p 4) (p 5)).1) p0 ∧
      ContDiffAt ℝ ∞ (fun p : Fin 9 → ℝ => (lambdasOf b (p 0) (p 1) (p 4) (p 5)).2) p0 := by
    cases b
    · simp only [lambdasOf, Bool.false_eq_true, if_false]
      exact ⟨by fun_prop, by fun_prop⟩
    · have hs := hb rfl
      have e0 : (Mc_eta_to_ms (p0 0) (p0 1)).1 * (Mc_eta_to_ms (p0 0) (p0 1)).2 /
        ((Mc_eta_to_ms (p0 0) (p0 1)).1 + (Mc_eta_to_ms (p0 0) (p0 1)).2) ^ 2 = p0 1 :=
        congrArg Prod.snd (C01_roundtrip_Mc_eta _ _ hMc he he'.le)
      have q1 := F.phys.m1_pos
      have q2 := F.phys.m2_pos
      have e : ContDiffAt ℝ ∞ (fun p : Fin 9 → ℝ => (Mc_eta_to_ms (p 0) (p 1)).1 * (Mc_eta_to_ms (p 0) (p 1)).2 /
        ((Mc_eta_to_ms (p 0) (p 1)).1 + (Mc_eta_to_ms (p 0) (p 1)).2) ^ 2) p0 :=
        (m1.mul m2).div ((m1.add m2).pow 2) (pow_pos (add_pos q1 q2) 2).ne'
      simp only [lambdasOf, if_true, lambda_tildes_to_lambdas, ms_to_Mc_eta, rpow_half]
      obtain ⟨n, en⟩ : ∃ n : (Fin 9 → ℝ) → ℝ, ∀ p, (Mc_eta_to_ms (p 0) (p 1)).1 * (Mc_eta_to_ms (p 0) (p 1)).2 /
        ((Mc_eta_to_ms (p 0) (p 1)).1 + (Mc_eta_to_ms (p 0) (p 1)).2) ^ 2 = n p := ⟨_, fun _ => rfl⟩
      rw [en] at e0
      simp only [en] at e ⊢
      rw [← e0] at hs he he'
      have S : ContDiffAt ℝ ∞ (fun p => √(1 - 4 * n p)) p0 := ContDiffAt.sqrt (by fun_prop) (by linarith)
      have hdet := lambda_det (sq_sqrt_eta he'.le)
      have hne : 4 / 1319 * n p0 ^ 4 * (249158 * n p0 - 4823) ≠ 0 := by
        refine mul_ne_zero (by positivity) ?_
        intro h; apply hs; unfold Spec.etaSingular; linarith
      rw [← hdet] at hne
      obtain ⟨r, er⟩ : ∃ r : (Fin 9 → ℝ) → ℝ, ∀ p, √(1 - 4 * n p) = r p := ⟨_, fun _ => rfl⟩
      simp only [er] at S hne ⊢
      refine ⟨ContDiffAt.div (by fun_prop) (by fun_prop) hne, ContDiffAt.div (by fun_prop) (by fun_prop) ?_⟩
      intro hh
      exact hne (by linarith)
  exact ⟨B, hl.1, hl.2, hl1, hl2⟩

/-! ### C105 -/

/-- TaylorF2: every sample at positive frequency is infinitely differentiable in chirp mass, symmetric mass ratio, spins, both
    tidal parameters, distance, time and phase together, for all symmetric mass ratios below 1/4, all aligned spins and all
    deformabilities other than 1 (where the fit for the quadrupole moment changes formula). -/
theorem C105_TaylorF2 (b : Bool) (Mc eta chi1 chi2 l1 l2 D tc phic f_ref : ℝ) (hMc : 0 < Mc) (he : 0 < eta)
    (he' : eta < 1 / 4) (h1 : |chi1| ≤ 1) (h2 : |chi2| ≤ 1) (hb : b = true → eta ≠ Spec.etaSingular)
    (hl1 : (lambdasOf b Mc eta l1 l2).1 ≠ 1) (hl2 : (lambdasOf b Mc eta l1 l2).2 ≠ 1) (hD : 0 < D) (grid : List ℝ) (j : ℕ)
    (hj : j < grid.length) (hf : 0 < grid.getD j 0) (hfr : 0 ≤ f_ref) :
    ContDiffAt ℝ ∞ (fun p : Fin 9 → ℝ =>
        (gen_TaylorF2 grid [p 0, p 1, p 2, p 3, p 4, p 5, p 6, p 7, p 8] f_ref b).getD j 0)
      ![Mc, eta, chi1, chi2, l1, l2, D, tc, phic] := by
  have F := genT_fam b (p0 := ![Mc, eta, chi1, chi2, l1, l2, D, tc, phic]) hMc he he' h1 h2 hb hl1 hl2
  simp only [genF2_eq, map_getElem hj]
  exact F.f2strain (f := fun _ => grid.getD j 0) (D := fun p => p 6) (tc := fun p => p 7) (phic := fun p => p 8)
    contDiffAt_const hf (by fun_prop) hD.ne' (by fun_prop) (by fun_prop) hfr

lemma getD_map' {j : ℕ} (g : ℂ → ℂ) (l : List ℂ) (hl : j < l.length) : (l.map g).getD j 0 = g (l.getD j 0) := by
  rw [List.getD_eq_getElem _ _ (by simpa using hl), List.getD_eq_getElem _ _ hl]
  simp

/-- Both polarisations likewise, with the inclination as tenth parameter. -/
theorem C105_TaylorF2_polarisations (b : Bool) (Mc eta chi1 chi2 l1 l2 D tc phic iota f_ref : ℝ) (hMc : 0 < Mc) (he : 0 < eta)
    (he' : eta < 1 / 4) (h1 : |chi1| ≤ 1) (h2 : |chi2| ≤ 1) (hb : b = true → eta ≠ Spec.etaSingular)
    (hl1 : (lambdasOf b Mc eta l1 l2).1 ≠ 1) (hl2 : (lambdasOf b Mc eta l1 l2).2 ≠ 1) (hD : 0 < D) (grid : List ℝ) (j : ℕ)
    (hj : j < grid.length) (hf : 0 < grid.getD j 0) (hfr : 0 ≤ f_ref) :
    ContDiffAt ℝ ∞ (fun p : Fin 10 → ℝ =>
        (gen_TaylorF2_hphc grid [p 0, p 1, p 2, p 3, p 4, p 5, p 6, p 7, p 8, p 9] f_ref b).1.getD j 0)
      ![Mc, eta, chi1, chi2, l1, l2, D, tc, phic, iota] ∧
    ContDiffAt ℝ ∞ (fun p : Fin 10 → ℝ =>
        (gen_TaylorF2_hphc grid [p 0, p 1, p 2, p 3, p 4, p 5, p 6, p 7, p 8, p 9] f_ref b).2.getD j 0)
      ![Mc, eta, chi1, chi2, l1, l2, D, tc, phic, iota] := by
  have S := C105_TaylorF2 b Mc eta chi1 chi2 l1 l2 D tc phic f_ref hMc he he' h1 h2 hb hl1 hl2 hD grid j hj hf hfr
  have hl : ∀ p : Fin 10 → ℝ, j < (gen_TaylorF2 grid [p 0, p 1, p 2, p 3, p 4, p 5, p 6, p 7, p 8] f_ref b).length := by
    intro p
    rw [genF2_eq]
    simpa using hj
  have T : ContDiffAt ℝ ∞ (fun p : Fin 10 → ℝ =>
      (gen_TaylorF2 grid [p 0, p 1, p 2, p 3, p 4, p 5, p 6, p 7, p 8] f_ref b).getD j 0)
      ![Mc, eta, chi1, chi2, l1, l2, D, tc, phic, iota] :=
    ContDiffAt.comp (f := fun p : Fin 10 → ℝ => ![p 0, p 1, p 2, p 3, p 4, p 5, p 6, p 7, p 8])
      ![Mc, eta, chi1, chi2, l1, l2, D, tc, phic, iota] S
      (contDiffAt_pi.2 fun i => by fin_cases i <;> simp <;> fun_prop)
  have c : ContDiffAt ℝ ∞ (fun p : Fin 10 → ℝ => Real.cos (p 9)) ![Mc, eta, chi1, chi2, l1, l2, D, tc, phic, iota] := by
    fun_prop
  constructor
  · simp only [C35_TaylorF2, getD_map' _ _ (hl _)]
    exact (Complex.ofRealCLM.contDiff.contDiffAt.comp _ ((contDiffAt_const.add (c.pow 2)).div_const 2)).mul T
  · simp only [C35_TaylorF2, getD_map' _ _ (hl _)]
    exact ((contDiffAt_const.mul T).mul (Complex.ofRealCLM.contDiff.contDiffAt.comp _ c)).neg

/-- witness: a binary neutron star with deformabilities 400 and 500 -/
example (tc phic : ℝ) : ContDiffAt ℝ ∞ (fun p : Fin 9 → ℝ =>
    (gen_TaylorF2 [20, 30, 40] [p 0, p 1, p 2, p 3, p 4, p 5, p 6, p 7, p 8] 20 false).getD 1 0)
    ![1.2, 0.249, 0.05, 0.02, 400, 500, 40, tc, phic] := by
  refine C105_TaylorF2 false _ _ _ _ _ _ _ tc phic 20 ?_ ?_ ?_ ?_ ?_ ?_ ?_ ?_ ?_ _ 1 ?_ ?_ ?_ <;>
    norm_num [lambdasOf, abs_le]

lemma heaviside_pos {x y : ℝ} (h : 0 < x) : Jnp.heaviside x y = 1 := by
  unfold Jnp.heaviside
  rw [if_neg h.not_gt, if_neg h.ne']

lemma heaviside_neg {x y : ℝ} (h : x < 0) : Jnp.heaviside x y = 0 := by
  unfold Jnp.heaviside
  rw [if_pos h]

/-- The taper is infinitely differentiable in frequency and merger frequency together, also where it starts, everywhere but at
    its end. -/
theorem C105_taper (x y : ℝ) (hy : 0 < y) (hx : x ≠ 1.2 * y) :
    ContDiffAt ℝ ∞ (fun p : ℝ × ℝ => finPart (get_planck_taper p.1 p.2)) (x, y) := by
  have S : ContDiffAt ℝ ∞ (fun p : ℝ × ℝ => Real.smoothTransition (6 - 5 * (p.1 / p.2))) (x, y) :=
    (Real.smoothTransition.contDiff.contDiffAt).comp (x, y)
      (contDiffAt_const.sub (contDiffAt_const.mul (contDiffAt_fst.div contDiffAt_snd hy.ne')))
  refine S.congr_of_eventuallyEq ?_
  have c1 : ∀ᶠ p : ℝ × ℝ in 𝓝 (x, y), 0 < p.2 := continuousAt_snd.eventually (lt_mem_nhds hy)
  have c2 : ∀ᶠ p : ℝ × ℝ in 𝓝 (x, y), p.1 - 1.2 * p.2 ≠ 0 :=
    (continuousAt_fst.sub (continuousAt_snd.const_mul 1.2)).eventually_ne (sub_ne_zero.2 hx)
  filter_upwards [c1, c2] with p h1 h2
  exact taper_eq_smooth h1 (sub_ne_zero.1 h2)

example : (0 : ℝ) < 1500 ∧ (1500 : ℝ) ≠ 1.2 * 1500 := by norm_num

/-- At its end it is not even continuous. -/
theorem C105_taper_end (y : ℝ) (hy : 0 < y) :
    ¬ ContinuousAt (fun x => finPart (get_planck_taper x y)) (1.2 * y) := by
  intro h
  have h1 : Tendsto (fun x => finPart (get_planck_taper x y)) (𝓝[>] (1.2 * y)) (𝓝 1) := by
    have := h.tendsto.mono_left (nhdsWithin_le_nhds (s := Ioi (1.2 * y)))
    rwa [C44_end_point y hy] at this
  have h0 : Tendsto (fun x => finPart (get_planck_taper x y)) (𝓝[>] (1.2 * y)) (𝓝 0) := by
    refine tendsto_const_nhds.congr' ?_
    filter_upwards [self_mem_nhdsWithin] with x hx
    rw [C44_above x y hy hx]
    rfl
  exact one_ne_zero (tendsto_nhds_unique h1 h0)

/-- IMRPhenomD_NRTidalv2: every sample that the cutoff leaves alone is continuously differentiable in chirp mass, symmetric mass
    ratio, spins, both tidal parameters, distance, time and phase together, with or without the taper, for all symmetric mass
    ratios below 1/4, all aligned spins and all non-negative deformabilities other than 1, wherever the spin of the remnant is not
    a node of the tables, the fit coefficient `gamma2` is not 1, and (with the taper) the frequency is not exactly 1.2 times the
    merger frequency, where the taper jumps. -/
theorem C105_NRTidalv2_general (q : QNM) (hq : q.Shipped) (b nt : Bool) (Mc eta chi1 chi2 l1 l2 D tc phic f_ref : ℝ)
    (hMc : 0 < Mc) (he : 0 < eta) (he' : eta < 1 / 4) (h1 : |chi1| ≤ 1) (h2 : |chi2| ≤ 1)
    (hb : b = true → eta ≠ Spec.etaSingular) (hp1 : 0 ≤ (lambdasOf b Mc eta l1 l2).1)
    (hp2 : 0 ≤ (lambdasOf b Mc eta l1 l2).2) (hl1 : (lambdasOf b Mc eta l1 l2).1 ≠ 1)
    (hl2 : (lambdasOf b Mc eta l1 l2).2 ≠ 1) (hnode : remnantSpinOf (thetaOf Mc eta chi1 chi2) ∉ q.a)
    (hg : get_coeffs (thetaOf Mc eta chi1 chi2) 5 ≠ 1) (hD : 0 < D) (grid : List ℝ) (hinc : Increasing grid) (j : ℕ)
    (hj : j < grid.length) (hf : 0 < grid.getD j 0) (hfr : 0 < f_ref)
    (hk : grid.getD (grid.length - 1) 0 < fCut (thetaOf Mc eta chi1 chi2) ∨
      (j + 2 < grid.length ∧ grid.getD (j + 2) 0 < fCut (thetaOf Mc eta chi1 chi2)))
    (ht : nt = false → grid.getD j 0 ≠ 1.2 * _get_merger_frequency (thetaTOf Mc eta chi1 chi2 l1 l2 b)
      (get_kappa (thetaTOf Mc eta chi1 chi2 l1 l2 b))) :
    ContDiffAt ℝ 1 (fun p : Fin 9 → ℝ =>
        (gen_IMRPhenomD_NRTidalv2 q grid [p 0, p 1, p 2, p 3, p 4, p 5, p 6, p 7, p 8] f_ref b nt).getD j 0)
      ![Mc, eta, chi1, chi2, l1, l2, D, tc, phic] := by
  set p0 : Fin 9 → ℝ := ![Mc, eta, chi1, chi2, l1, l2, D, tc, phic] with hp0
  have F := genT_fam b (p0 := p0) hMc he he' h1 h2 hb hl1 hl2
  have H : DFam q (fun p : Fin 9 → ℝ => bbh (thetaTOf (p 0) (p 1) (p 2) (p 3) (p 4) (p 5) b)) p0 :=
    ⟨F.bh, hq, by rw [remnantSpin_eq]; exact hnode, hg⟩
  have hc : ContDiffAt ℝ ∞ (fun p : Fin 9 → ℝ => fCut (thetaOf (p 0) (p 1) (p 2) (p 3))) p0 := by
    simp only [fCut_eq]
    exact contDiffAt_const.div F.bh.Ms_smooth F.bh.Ms_pos.ne'
  have ev : ∀ᶠ p in 𝓝 p0, grid.getD j 0 < cutThr grid (fCut (thetaOf (p 0) (p 1) (p 2) (p 3))) := by
    rcases hk with hk | ⟨hj2, hk⟩
    · filter_upwards [hc.continuousAt.eventually_const_lt hk] with p hp
      exact below_cutThr hinc hj (Or.inl hp)
    · filter_upwards [hc.continuousAt.eventually_const_lt hk] with p hp
      exact below_cutThr hinc hj (Or.inr ⟨hj2, hp⟩)
  have A := H.ampAt_C1 (f := fun _ => grid.getD j 0) (D := fun p => p 6) contDiffAt_const (by fun_prop) hf hD ev
  have P := H.psi_C1 (f := fun _ => grid.getD j 0) (fr := fun _ => f_ref) (tc := fun p => p 7) (phic := fun p => p 8)
    contDiffAt_const contDiffAt_const (by fun_prop) (by fun_prop) hf hfr
  have TA := (F.tidal_amp (f := fun _ => grid.getD j 0) (D := fun p => p 6) contDiffAt_const hf (by fun_prop) hD.ne').of_le
    (m := 1) (by simp)
  have TP := (F.tidal_phase (f := fun _ => grid.getD j 0) contDiffAt_const hf).of_le (m := 1) (by simp)
  have SP := (F.spin_phase hp1 hp2 (f := fun _ => grid.getD j 0) contDiffAt_const hf).of_le (m := 1) (by simp)
  have W := (F.taper hp1 hp2 nt (f := fun _ => grid.getD j 0) contDiffAt_const ht).of_le (m := 1) (by simp)
  have S := (Complex.ofRealCLM.contDiff.contDiffAt.comp _ (W.mul (A.add TA))).mul
    ((contDiffAt_const (c := Complex.I).mul (Complex.ofRealCLM.contDiff.contDiffAt.comp _ (P.add (TP.add SP)).neg)).cexp)
  refine S.congr_of_eventuallyEq ?_
  filter_upwards [ev] with p hp
  rw [genNR_eq, map_getElem hj]
  unfold nrStrain
  dsimp only
  rw [heaviside_pos (sub_pos.2 hp), heaviside_neg (sub_neg.2 hp), mul_one, mul_zero, add_zero]
  rfl

/-- In particular for `0.225 ≤ eta < 1/4` (mass ratio up to 1.94) with any aligned spins, and for every eta below 1/4 with
    aligned spins of at most 0.85 (any anti-aligned ones). -/
theorem C105_NRTidalv2 (q : QNM) (hq : q.Shipped) (b nt : Bool) (Mc eta chi1 chi2 l1 l2 D tc phic f_ref : ℝ)
    (hMc : 0 < Mc) (he : 0 < eta) (he' : eta < 1 / 4) (h1 : |chi1| ≤ 1) (h2 : |chi2| ≤ 1)
    (hr : 0.225 ≤ eta ∨ (chi1 ≤ 0.85 ∧ chi2 ≤ 0.85))
    (hb : b = true → eta ≠ Spec.etaSingular) (hp1 : 0 ≤ (lambdasOf b Mc eta l1 l2).1)
    (hp2 : 0 ≤ (lambdasOf b Mc eta l1 l2).2) (hl1 : (lambdasOf b Mc eta l1 l2).1 ≠ 1)
    (hl2 : (lambdasOf b Mc eta l1 l2).2 ≠ 1) (hnode : remnantSpinOf (thetaOf Mc eta chi1 chi2) ∉ q.a)
    (hD : 0 < D) (grid : List ℝ) (hinc : Increasing grid) (j : ℕ)
    (hj : j < grid.length) (hf : 0 < grid.getD j 0) (hfr : 0 < f_ref)
    (hk : grid.getD (grid.length - 1) 0 < fCut (thetaOf Mc eta chi1 chi2) ∨
      (j + 2 < grid.length ∧ grid.getD (j + 2) 0 < fCut (thetaOf Mc eta chi1 chi2)))
    (ht : nt = false → grid.getD j 0 ≠ 1.2 * _get_merger_frequency (thetaTOf Mc eta chi1 chi2 l1 l2 b)
      (get_kappa (thetaTOf Mc eta chi1 chi2 l1 l2 b))) :
    ContDiffAt ℝ 1 (fun p : Fin 9 → ℝ =>
        (gen_IMRPhenomD_NRTidalv2 q grid [p 0, p 1, p 2, p 3, p 4, p 5, p 6, p 7, p 8] f_ref b nt).getD j 0)
      ![Mc, eta, chi1, chi2, l1, l2, D, tc, phic] := by
  have hph := thetaOf_physical (chi1 := chi1) (chi2 := chi2) hMc he he'.le h1 h2
  refine C105_NRTidalv2_general q hq b nt Mc eta chi1 chi2 l1 l2 D tc phic f_ref hMc he he' h1 h2 hb hp1 hp2 hl1 hl2 hnode
    (gamma2_lt hph ?_).ne hD grid hinc j hj hf hfr hk ht
  rw [etaOf_thetaOf hMc he he'.le]
  exact hr

/-- Both polarisations likewise, with the inclination as tenth parameter. -/
theorem C105_NRTidalv2_polarisations (q : QNM) (hq : q.Shipped) (b nt : Bool)
    (Mc eta chi1 chi2 l1 l2 D tc phic iota f_ref : ℝ)
    (hMc : 0 < Mc) (he : 0 < eta) (he' : eta < 1 / 4) (h1 : |chi1| ≤ 1) (h2 : |chi2| ≤ 1)
    (hr : 0.225 ≤ eta ∨ (chi1 ≤ 0.85 ∧ chi2 ≤ 0.85))
    (hb : b = true → eta ≠ Spec.etaSingular) (hp1 : 0 ≤ (lambdasOf b Mc eta l1 l2).1)
    (hp2 : 0 ≤ (lambdasOf b Mc eta l1 l2).2) (hl1 : (lambdasOf b Mc eta l1 l2).1 ≠ 1)
    (hl2 : (lambdasOf b Mc eta l1 l2).2 ≠ 1) (hnode : remnantSpinOf (thetaOf Mc eta chi1 chi2) ∉ q.a)
    (hD : 0 < D) (grid : List ℝ) (hinc : Increasing grid) (j : ℕ)
    (hj : j < grid.length) (hf : 0 < grid.getD j 0) (hfr : 0 < f_ref)
    (hk : grid.getD (grid.length - 1) 0 < fCut (thetaOf Mc eta chi1 chi2) ∨
      (j + 2 < grid.length ∧ grid.getD (j + 2) 0 < fCut (thetaOf Mc eta chi1 chi2)))
    (ht : nt = false → grid.getD j 0 ≠ 1.2 * _get_merger_frequency (thetaTOf Mc eta chi1 chi2 l1 l2 b)
      (get_kappa (thetaTOf Mc eta chi1 chi2 l1 l2 b))) :
    ContDiffAt ℝ 1 (fun p : Fin 10 → ℝ =>
        (gen_IMRPhenomD_NRTidalv2_hphc q grid [p 0, p 1, p 2, p 3, p 4, p 5, p 6, p 7, p 8, p 9] f_ref b nt).1.getD j 0)
      ![Mc, eta, chi1, chi2, l1, l2, D, tc, phic, iota] ∧
    ContDiffAt ℝ 1 (fun p : Fin 10 → ℝ =>
        (gen_IMRPhenomD_NRTidalv2_hphc q grid [p 0, p 1, p 2, p 3, p 4, p 5, p 6, p 7, p 8, p 9] f_ref b nt).2.getD j 0)
      ![Mc, eta, chi1, chi2, l1, l2, D, tc, phic, iota] := by
  have S := C105_NRTidalv2 q hq b nt Mc eta chi1 chi2 l1 l2 D tc phic f_ref hMc he he' h1 h2 hr hb hp1 hp2 hl1 hl2 hnode hD
    grid hinc j hj hf hfr hk ht
  have hl : ∀ p : Fin 10 → ℝ,
      j < (gen_IMRPhenomD_NRTidalv2 q grid [p 0, p 1, p 2, p 3, p 4, p 5, p 6, p 7, p 8] f_ref b nt).length := by
    intro p
    rw [genNR_eq]
    simpa using hj
  have T : ContDiffAt ℝ 1 (fun p : Fin 10 → ℝ =>
      (gen_IMRPhenomD_NRTidalv2 q grid [p 0, p 1, p 2, p 3, p 4, p 5, p 6, p 7, p 8] f_ref b nt).getD j 0)
      ![Mc, eta, chi1, chi2, l1, l2, D, tc, phic, iota] :=
    ContDiffAt.comp (f := fun p : Fin 10 → ℝ => ![p 0, p 1, p 2, p 3, p 4, p 5, p 6, p 7, p 8])
      ![Mc, eta, chi1, chi2, l1, l2, D, tc, phic, iota] S
      (contDiffAt_pi.2 fun i => by fin_cases i <;> simp <;> fun_prop)
  have c : ContDiffAt ℝ 1 (fun p : Fin 10 → ℝ => Real.cos (p 9)) ![Mc, eta, chi1, chi2, l1, l2, D, tc, phic, iota] := by
    fun_prop
  constructor
  · simp only [C35_NRTidalv2, getD_map' _ _ (hl _)]
    exact (Complex.ofRealCLM.contDiff.contDiffAt.comp _ ((contDiffAt_const.add (c.pow 2)).div_const 2)).mul T
  · simp only [C35_NRTidalv2, getD_map' _ _ (hl _)]
    exact ((contDiffAt_const.mul T).mul (Complex.ofRealCLM.contDiff.contDiffAt.comp _ c)).neg

/-- witness: chirp mass 1, symmetric mass ratio 1/32, no spins, deformabilities 400 and 500, no taper, as shipped -/
example (D tc phic : ℝ) (hD : 0 < D) : ContDiffAt ℝ 1 (fun p : Fin 9 → ℝ =>
    (gen_IMRPhenomD_NRTidalv2 (qnmTable 1.2e-7) [20, 30, 40] [p 0, p 1, p 2, p 3, p 4, p 5, p 6, p 7, p 8] 20 false
      true).getD 1 0)
    ![1, 1 / 32, 0, 0, 400, 500, D, tc, phic] := by
  refine C105_NRTidalv2 _ (C93_shipped (by norm_num) (by norm_num)) false true 1 (1 / 32) 0 0 400 500 D tc phic 20
    (by norm_num) (by norm_num) (by norm_num) (by norm_num) (by norm_num) (Or.inr (by norm_num)) (by simp)
    (by norm_num [lambdasOf]) (by norm_num [lambdasOf]) (by norm_num [lambdasOf]) (by norm_num [lambdasOf])
    witness_node hD _ witness_grid 1 (by simp) (by simp) (by norm_num) (Or.inl witness_cut) (by simp)

/-- witness with the taper: the same binary with vanishing deformabilities, whose merger frequency exceeds 40 Hz -/
example (D tc phic : ℝ) (hD : 0 < D) : ContDiffAt ℝ 1 (fun p : Fin 9 → ℝ =>
    (gen_IMRPhenomD_NRTidalv2 (qnmTable 1.2e-7) [20, 30, 40] [p 0, p 1, p 2, p 3, p 4, p 5, p 6, p 7, p 8] 20 false
      false).getD 1 0)
    ![1, 1 / 32, 0, 0, 0, 0, D, tc, phic] := by
  refine C105_NRTidalv2 _ (C93_shipped (by norm_num) (by norm_num)) false false 1 (1 / 32) 0 0 0 0 D tc phic 20
    (by norm_num) (by norm_num) (by norm_num) (by norm_num) (by norm_num) (Or.inr (by norm_num)) (by simp)
    (by norm_num [lambdasOf]) (by norm_num [lambdasOf]) (by norm_num [lambdasOf]) (by norm_num [lambdasOf])
    witness_node hD _ witness_grid 1 (by simp) (by simp) (by norm_num) (Or.inl witness_cut) ?_
  intro _
  have hk : get_kappa (thetaTOf 1 (1 / 32) 0 0 0 0 false) = 0 := kappa_zero _ _ _ _
  have hm := C02_masses_ordered 1 (1 / 32) (by norm_num) (by norm_num) (by norm_num)
  have hM := witness_M
  have hr : (Mc_eta_to_ms 1 (1 / 32)).1 * (Mc_eta_to_ms 1 (1 / 32)).2 /
      ((Mc_eta_to_ms 1 (1 / 32)).1 + (Mc_eta_to_ms 1 (1 / 32)).2) ^ 2 = 1 / 32 :=
    congrArg Prod.snd (C01_roundtrip_Mc_eta 1 (1 / 32) (by norm_num) (by norm_num) (by norm_num))
  rw [hk]
  have e : _get_merger_frequency (thetaTOf 1 (1 / 32) 0 0 0 0 false) 0 =
      0.3586 * ((Mc_eta_to_ms 1 (1 / 32)).1 * gt / ((Mc_eta_to_ms 1 (1 / 32)).2 * gt)) ^ (-((1 : ℝ) / 2)) / (8 * gt) / TWO_PI := by
    unfold _get_merger_frequency thetaTOf
    simp only [hM, mul_zero, add_zero, div_one, mul_one]
  rw [e]
  rw [hM] at hr
  have p2 := hm.1
  generalize (Mc_eta_to_ms 1 (1 / 32)).1 = x at *
  generalize (Mc_eta_to_ms 1 (1 / 32)).2 = y at *
  have hg := gt_pos
  have px : 0 < x := by linarith [hm.2.1]
  have q : x * gt / (y * gt) ≤ 36 := by
    rw [mul_div_mul_right _ _ hg.ne', div_le_iff₀ p2]
    nlinarith
  have q0 : 0 < x * gt / (y * gt) := by positivity
  have w : 1 / 6 ≤ (x * gt / (y * gt)) ^ (-((1 : ℝ) / 2)) := by
    have : ((36 : ℝ)) ^ (-((1 : ℝ) / 2)) = 1 / 6 := by
      rw [show (36 : ℝ) = 6 ^ (2 : ℝ) by norm_num, ← Real.rpow_mul (by norm_num)]
      norm_num [Real.rpow_neg_one]
    rw [← this]
    exact Real.rpow_le_rpow_of_nonpos q0 q (by norm_num)
  refine ne_of_lt ?_
  have hpi := Real.pi_lt_d2
  have hpi0 := Real.pi_pos
  change (30 : ℝ) < _
  have k : 40 ≤ 0.3586 * (x * gt / (y * gt)) ^ (-((1 : ℝ) / 2)) / (8 * gt) / TWO_PI := by
    have t : TWO_PI < 6.3 := by unfold TWO_PI; linarith
    have t0 : 0 < TWO_PI := by unfold TWO_PI; positivity
    have g : gt < 5e-6 := by norm_num [gt, G, MSUN, C]
    rw [le_div_iff₀ t0, le_div_iff₀ (by positivity)]
    generalize (x * gt / (y * gt)) ^ (-((1 : ℝ) / 2)) = w' at *
    nlinarith [mul_pos t0 hg, mul_pos (sub_pos.2 t) hg]
  linarith

end Ripple

/-
  Property C104: the IMRPhenomD waveform is continuously differentiable in all parameters together, away from the nodes of the
  quasi-normal-mode tables.
-/
import Verif.Proofs.DGrad
import Verif.Proofs.DGamma
import Verif.Proofs.DKink
import Verif.Props.XASGrad
import Verif.Props.QNM

namespace Ripple
open scoped ContDiff Topology
open Set Filter PhenomD

/-- the spin of the remnant of an aligned-spin binary according to the fit used by IMRPhenomD -/
noncomputable def remnantSpinOf (theta : Theta) : ℝ :=
  FinalSpin0815_s (theta.m1 * theta.m2 / (theta.m1 + theta.m2) ^ 2)
    ((theta.chi1 * theta.m1 ^ 2 + theta.chi2 * theta.m2 ^ 2) / (theta.m1 + theta.m2) ^ 2)

lemma remnantSpin_eq (theta : Theta) : PhenomD.remnantSpin theta = remnantSpinOf theta := by
  have hg := gt_pos.ne'
  have e1 : theta.m1 * gt * (theta.m2 * gt) / (theta.m1 * gt + theta.m2 * gt) ^ 2 =
      theta.m1 * theta.m2 / (theta.m1 + theta.m2) ^ 2 := by
    rw [← add_mul, mul_pow, show theta.m1 * gt * (theta.m2 * gt) = theta.m1 * theta.m2 * gt ^ 2 by ring,
      mul_div_mul_right _ _ (pow_ne_zero 2 hg)]
  have e2 : (theta.chi1 * (theta.m1 * gt) ^ 2 + theta.chi2 * (theta.m2 * gt) ^ 2) / (theta.m1 * gt + theta.m2 * gt) ^ 2 =
      (theta.chi1 * theta.m1 ^ 2 + theta.chi2 * theta.m2 ^ 2) / (theta.m1 + theta.m2) ^ 2 := by
    rw [← add_mul, mul_pow (theta.m1 + theta.m2) gt 2, show theta.chi1 * (theta.m1 * gt) ^ 2 + theta.chi2 * (theta.m2 * gt) ^ 2 =
      (theta.chi1 * theta.m1 ^ 2 + theta.chi2 * theta.m2 ^ 2) * gt ^ 2 by ring, mul_div_mul_right _ _ (pow_ne_zero 2 hg)]
  unfold PhenomD.remnantSpin remnantSpinOf
  rw [e1, e2]

/-! ### C104 -/

/-- The phase is continuously differentiable in frequency, masses and spins together, at every positive frequency, for all
    unequal masses and all aligned spins, wherever the spin of the remnant is not a node of the tables and the fit coefficient
    `gamma2` is not 1 (at 1 the ringdown amplitude loses its peak, and the formula for the peak position changes). -/
theorem C104_phase (q : QNM) (hq : q.Shipped) (f m1 m2 chi1 chi2 : ℝ) (h1 : 0 < m1) (h2 : 0 < m2) (hne : m1 ≠ m2)
    (hs1 : |chi1| ≤ 1) (hs2 : |chi2| ≤ 1) (hnode : remnantSpinOf ⟨m1, m2, chi1, chi2⟩ ∉ q.a)
    (hg : get_coeffs ⟨m1, m2, chi1, chi2⟩ 5 ≠ 1) (hf : 0 < f) :
    ContDiffAt ℝ 1 (fun p : Fin 5 → ℝ => Phase (p 0) ⟨p 1, p 2, p 3, p 4⟩ (get_coeffs ⟨p 1, p 2, p 3, p 4⟩)
      (tfOf q ⟨p 1, p 2, p 3, p 4⟩)) ![f, m1, m2, chi1, chi2] := by
  have H : DFam q (fun p : Fin 5 → ℝ => Theta.mk (p 1) (p 2) (p 3) (p 4)) ![f, m1, m2, chi1, chi2] :=
    ⟨⟨by fun_prop, by fun_prop, by fun_prop, by fun_prop, ⟨h1, h2, hs1, hs2⟩, hne⟩, hq, by
      rw [remnantSpin_eq]; exact hnode, hg⟩
  exact H.Phase_C1 (f := fun p => p 0) (by fun_prop) hf

/-- The amplitude likewise, below the cutoff 0.2/M, with the distance as sixth parameter. -/
theorem C104_amplitude (q : QNM) (hq : q.Shipped) (f m1 m2 chi1 chi2 D : ℝ) (h1 : 0 < m1) (h2 : 0 < m2) (hne : m1 ≠ m2)
    (hs1 : |chi1| ≤ 1) (hs2 : |chi2| ≤ 1) (hnode : remnantSpinOf ⟨m1, m2, chi1, chi2⟩ ∉ q.a)
    (hg : get_coeffs ⟨m1, m2, chi1, chi2⟩ 5 ≠ 1) (hD : 0 < D) (hf : 0 < f) (hf' : f < 0.2 / ((m1 + m2) * gt)) :
    ContDiffAt ℝ 1 (fun p : Fin 6 → ℝ => (Amp [p 0] ⟨p 1, p 2, p 3, p 4⟩ (get_coeffs ⟨p 1, p 2, p 3, p 4⟩)
      (tfOf q ⟨p 1, p 2, p 3, p 4⟩) (p 5)).getD 0 0) ![f, m1, m2, chi1, chi2, D] := by
  have H : DFam q (fun p : Fin 6 → ℝ => Theta.mk (p 1) (p 2) (p 3) (p 4)) ![f, m1, m2, chi1, chi2, D] :=
    ⟨⟨by fun_prop, by fun_prop, by fun_prop, by fun_prop, ⟨h1, h2, hs1, hs2⟩, hne⟩, hq, by
      rw [remnantSpin_eq]; exact hnode, hg⟩
  have hc : ContDiffAt ℝ ∞ (fun p : Fin 6 → ℝ => fM_CUT / Ms ⟨p 1, p 2, p 3, p 4⟩) ![f, m1, m2, chi1, chi2, D] :=
    contDiffAt_const.div H.toSmoothFam.Ms_smooth H.toSmoothFam.Ms_pos.ne'
  have hp : ContinuousAt (fun p : Fin 6 → ℝ => p 0) ![f, m1, m2, chi1, chi2, D] := (continuous_apply 0).continuousAt
  have ev : ∀ᶠ p in 𝓝 (![f, m1, m2, chi1, chi2, D] : Fin 6 → ℝ), p 0 < fM_CUT / Ms ⟨p 1, p 2, p 3, p 4⟩ := by
    refine hp.eventually_lt hc.continuousAt ?_
    change f < fM_CUT / Ms ⟨m1, m2, chi1, chi2⟩
    rw [← Ms_eq, fM_CUT]
    exact hf'
  refine (H.ampAt_C1 (f := fun p => p 0) (D := fun p => p 5) (by fun_prop) (by fun_prop) hf hD ev).congr_of_eventuallyEq ?_
  filter_upwards [ev] with p hp
  rw [Amp_eq, cutThr_uncut (by simp) (by simpa using hp)]
  rfl

/-- the samples that the cutoff leaves alone stay so for all nearby cutoffs -/
lemma below_cutThr {grid : List ℝ} (hinc : Increasing grid) {j : ℕ} (hj : j < grid.length) {c : ℝ}
    (hk : grid.getD (grid.length - 1) 0 < c ∨ (j + 2 < grid.length ∧ grid.getD (j + 2) 0 < c)) :
    grid.getD j 0 < cutThr grid c := by
  have hne : grid ≠ [] := by rintro rfl; simp at hj
  have mono : ∀ i k, i ≤ k → k < grid.length → grid.getD i 0 ≤ grid.getD k 0 := by
    intro i k h hk
    rcases h.lt_or_eq with h | h
    · exact (hinc i k h hk).le
    · rw [h]
  by_cases hl : grid.getD (grid.length - 1) 0 < c
  · rw [cutThr_uncut hne hl]
    exact lt_of_le_of_lt (mono _ _ (by omega) (by omega)) hl
  · obtain ⟨hj2, hc⟩ := hk.resolve_left hl
    obtain ⟨i, hi⟩ := exists_closest hne c
    have hi2 : j + 2 ≤ i := by
      by_contra hcon
      have h1 := hi.2.1 (j + 2) hj2
      have h2 := hinc i (j + 2) (by omega) hj2
      rw [abs_of_nonpos (by linarith), abs_of_nonpos (by linarith)] at h1
      linarith
    rw [cutThr_pos hi (by omega) (not_lt.1 hl)]
    exact hinc _ _ (by omega) (by have := hi.1; omega)

/-- Every sample of the generated strain that the cutoff leaves alone is continuously differentiable in chirp mass, symmetric
    mass ratio, spins, distance, time and phase together, for all symmetric mass ratios below 1/4 and all aligned spins,
    wherever the spin of the remnant is not a node of the tables and the fit coefficient `gamma2` is not 1.  A sample is left
    alone if the whole increasing grid, or at least the next two points of it, lie below 0.2/M. -/
theorem C104_strain_general (q : QNM) (hq : q.Shipped) (Mc eta chi1 chi2 D tc phic f_ref : ℝ) (hMc : 0 < Mc) (he : 0 < eta)
    (he' : eta < 1 / 4) (h1 : |chi1| ≤ 1) (h2 : |chi2| ≤ 1) (hnode : remnantSpinOf (thetaOf Mc eta chi1 chi2) ∉ q.a)
    (hg : get_coeffs (thetaOf Mc eta chi1 chi2) 5 ≠ 1) (hD : 0 < D) (grid : List ℝ) (hinc : Increasing grid) (j : ℕ)
    (hj : j < grid.length) (hf : 0 < grid.getD j 0) (hfr : 0 < f_ref)
    (hk : grid.getD (grid.length - 1) 0 < fCut (thetaOf Mc eta chi1 chi2) ∨
      (j + 2 < grid.length ∧ grid.getD (j + 2) 0 < fCut (thetaOf Mc eta chi1 chi2))) :
    ContDiffAt ℝ 1 (fun p : Fin 7 → ℝ =>
        (gen_IMRPhenomD q grid [p 0, p 1, p 2, p 3, p 4, p 5, p 6] f_ref).getD j 0)
      ![Mc, eta, chi1, chi2, D, tc, phic] := by
  have F := genX_fam (p0 := ![Mc, eta, chi1, chi2, D, tc, phic]) hMc he he' h1 h2
  have H : DFam q (fun p : Fin 7 → ℝ => thetaOf (p 0) (p 1) (p 2) (p 3)) ![Mc, eta, chi1, chi2, D, tc, phic] :=
    ⟨F, hq, by rw [remnantSpin_eq]; exact hnode, hg⟩
  have hc : ContDiffAt ℝ ∞ (fun p : Fin 7 → ℝ => fCut (thetaOf (p 0) (p 1) (p 2) (p 3)))
      ![Mc, eta, chi1, chi2, D, tc, phic] := by
    simp only [fCut_eq]
    exact contDiffAt_const.div F.Ms_smooth F.Ms_pos.ne'
  have ev : ∀ᶠ p in 𝓝 (![Mc, eta, chi1, chi2, D, tc, phic] : Fin 7 → ℝ),
      grid.getD j 0 < cutThr grid (fCut (thetaOf (p 0) (p 1) (p 2) (p 3))) := by
    rcases hk with hk | ⟨hj2, hk⟩
    · filter_upwards [hc.continuousAt.eventually_const_lt hk] with p hp
      exact below_cutThr hinc hj (Or.inl hp)
    · filter_upwards [hc.continuousAt.eventually_const_lt hk] with p hp
      exact below_cutThr hinc hj (Or.inr ⟨hj2, hp⟩)
  have A := H.ampAt_C1 (f := fun _ => grid.getD j 0) (D := fun p => p 4) contDiffAt_const (by fun_prop) hf hD ev
  have P := H.psi_C1 (f := fun _ => grid.getD j 0) (fr := fun _ => f_ref) (tc := fun p => p 5) (phic := fun p => p 6)
    contDiffAt_const contDiffAt_const (by fun_prop) (by fun_prop) hf hfr
  have S := (Complex.ofRealCLM.contDiff.contDiffAt.comp _ A).mul
    ((contDiffAt_const (c := Complex.I).mul (Complex.ofRealCLM.contDiff.contDiffAt.comp _ P.neg)).cexp)
  refine S.congr_of_eventuallyEq ?_
  filter_upwards [ev] with p hp
  rw [genD_eq, map_getElem hj, strainAt_below hp]
  rfl

/-- In particular for `0.225 ≤ eta < 1/4` (mass ratio up to 1.94) with any aligned spins, and for every eta below 1/4 with
    aligned spins of at most 0.85 (any anti-aligned ones). -/
theorem C104_strain (q : QNM) (hq : q.Shipped) (Mc eta chi1 chi2 D tc phic f_ref : ℝ) (hMc : 0 < Mc) (he : 0 < eta)
    (he' : eta < 1 / 4) (h1 : |chi1| ≤ 1) (h2 : |chi2| ≤ 1) (hr : 0.225 ≤ eta ∨ (chi1 ≤ 0.85 ∧ chi2 ≤ 0.85))
    (hnode : remnantSpinOf (thetaOf Mc eta chi1 chi2) ∉ q.a) (hD : 0 < D) (grid : List ℝ) (hinc : Increasing grid) (j : ℕ)
    (hj : j < grid.length) (hf : 0 < grid.getD j 0) (hfr : 0 < f_ref)
    (hk : grid.getD (grid.length - 1) 0 < fCut (thetaOf Mc eta chi1 chi2) ∨
      (j + 2 < grid.length ∧ grid.getD (j + 2) 0 < fCut (thetaOf Mc eta chi1 chi2))) :
    ContDiffAt ℝ 1 (fun p : Fin 7 → ℝ =>
        (gen_IMRPhenomD q grid [p 0, p 1, p 2, p 3, p 4, p 5, p 6] f_ref).getD j 0)
      ![Mc, eta, chi1, chi2, D, tc, phic] := by
  have hph := thetaOf_physical (chi1 := chi1) (chi2 := chi2) hMc he he'.le h1 h2
  refine C104_strain_general q hq Mc eta chi1 chi2 D tc phic f_ref hMc he he' h1 h2 hnode (gamma2_lt hph ?_).ne hD grid hinc
    j hj hf hfr hk
  rw [etaOf_thetaOf hMc he he'.le]
  exact hr

/-- Both polarisations likewise, with the inclination as eighth parameter. -/
theorem C104_polarisations (q : QNM) (hq : q.Shipped) (Mc eta chi1 chi2 D tc phic iota f_ref : ℝ) (hMc : 0 < Mc)
    (he : 0 < eta) (he' : eta < 1 / 4) (h1 : |chi1| ≤ 1) (h2 : |chi2| ≤ 1) (hr : 0.225 ≤ eta ∨ (chi1 ≤ 0.85 ∧ chi2 ≤ 0.85))
    (hnode : remnantSpinOf (thetaOf Mc eta chi1 chi2) ∉ q.a) (hD : 0 < D) (grid : List ℝ) (hinc : Increasing grid) (j : ℕ)
    (hj : j < grid.length) (hf : 0 < grid.getD j 0) (hfr : 0 < f_ref)
    (hk : grid.getD (grid.length - 1) 0 < fCut (thetaOf Mc eta chi1 chi2) ∨
      (j + 2 < grid.length ∧ grid.getD (j + 2) 0 < fCut (thetaOf Mc eta chi1 chi2))) :
    ContDiffAt ℝ 1 (fun p : Fin 8 → ℝ =>
        (gen_IMRPhenomD_hphc q grid [p 0, p 1, p 2, p 3, p 4, p 5, p 6, p 7] f_ref).1.getD j 0)
      ![Mc, eta, chi1, chi2, D, tc, phic, iota] ∧
    ContDiffAt ℝ 1 (fun p : Fin 8 → ℝ =>
        (gen_IMRPhenomD_hphc q grid [p 0, p 1, p 2, p 3, p 4, p 5, p 6, p 7] f_ref).2.getD j 0)
      ![Mc, eta, chi1, chi2, D, tc, phic, iota] := by
  have S := C104_strain q hq Mc eta chi1 chi2 D tc phic f_ref hMc he he' h1 h2 hr hnode hD grid hinc j hj hf hfr hk
  have hl : ∀ p : Fin 8 → ℝ, j < (gen_IMRPhenomD q grid [p 0, p 1, p 2, p 3, p 4, p 5, p 6] f_ref).length := by
    intro p
    rw [genD_eq]
    simpa using hj
  have hm : ∀ (g : ℂ → ℂ) (l : List ℂ), j < l.length → (l.map g).getD j 0 = g (l.getD j 0) := by
    intro g l hl
    rw [List.getD_eq_getElem _ _ (by simpa using hl), List.getD_eq_getElem _ _ hl]
    simp
  have T : ContDiffAt ℝ 1 (fun p : Fin 8 → ℝ =>
      (gen_IMRPhenomD q grid [p 0, p 1, p 2, p 3, p 4, p 5, p 6] f_ref).getD j 0)
      ![Mc, eta, chi1, chi2, D, tc, phic, iota] :=
    ContDiffAt.comp (f := fun p : Fin 8 → ℝ => ![p 0, p 1, p 2, p 3, p 4, p 5, p 6])
      ![Mc, eta, chi1, chi2, D, tc, phic, iota] S
      (contDiffAt_pi.2 fun i => by fin_cases i <;> simp <;> fun_prop)
  have c : ContDiffAt ℝ 1 (fun p : Fin 8 → ℝ => Real.cos (p 7)) ![Mc, eta, chi1, chi2, D, tc, phic, iota] := by fun_prop
  constructor
  · simp only [C35_D, hm _ _ (hl _)]
    exact (Complex.ofRealCLM.contDiff.contDiffAt.comp _ ((contDiffAt_const.add (c.pow 2)).div_const 2)).mul T
  · simp only [C35_D, hm _ _ (hl _)]
    exact ((contDiffAt_const.mul T).mul (Complex.ofRealCLM.contDiff.contDiffAt.comp _ c)).neg

lemma witness_M : (Mc_eta_to_ms 1 (1 / 32)).1 + (Mc_eta_to_ms 1 (1 / 32)).2 = 8 := by
  have h : ((1 : ℝ) / 32) ^ ((3 : ℝ) / 5) = 1 / 8 := by
    rw [show (1 : ℝ) / 32 = (1 / 2) ^ (5 : ℝ) by norm_num, ← Real.rpow_mul (by norm_num)]
    norm_num
  unfold Mc_eta_to_ms
  rw [h]
  dsimp only
  ring

lemma witness_node : remnantSpinOf (thetaOf 1 (1 / 32) 0 0) ∉ (qnmTable 1.2e-7).a := by
  have hr := congrArg Prod.snd (C01_roundtrip_Mc_eta 1 (1 / 32) (by norm_num) (by norm_num) (by norm_num))
  have e : remnantSpinOf (thetaOf 1 (1 / 32) 0 0) = FinalSpin0815_s (1 / 32) 0 := by
    unfold remnantSpinOf thetaOf
    change (Mc_eta_to_ms 1 (1 / 32)).1 * (Mc_eta_to_ms 1 (1 / 32)).2 /
      ((Mc_eta_to_ms 1 (1 / 32)).1 + (Mc_eta_to_ms 1 (1 / 32)).2) ^ 2 = 1 / 32 at hr
    dsimp only
    rw [hr]
    simp
  rw [e]
  obtain ⟨-, -, -, -, -, -, -, len, val, -⟩ := C93_tables 1.2e-7
  intro h
  obtain ⟨k, hk, hv⟩ := List.getElem_of_mem h
  have hk' := hk
  rw [len] at hk'
  have hv' := val k hk'
  rw [List.getD_eq_getElem _ _ hk, hv] at hv'
  unfold FinalSpin0815_s at hv'
  have a : ((276057 : ℕ) : ℝ) < k := by norm_num at hv'; push_cast; linarith
  have b : (k : ℝ) < ((276058 : ℕ) : ℝ) := by norm_num at hv'; push_cast; linarith
  have a' := Nat.cast_lt.1 a
  have b' := Nat.cast_lt.1 b
  omega

lemma witness_grid : Increasing ([20, 30, 40] : List ℝ) := by
  intro i j hij hj
  simp only [List.length_cons, List.length_nil] at hj
  have : (i = 0 ∧ j = 1) ∨ (i = 0 ∧ j = 2) ∨ (i = 1 ∧ j = 2) := by omega
  rcases this with ⟨rfl, rfl⟩ | ⟨rfl, rfl⟩ | ⟨rfl, rfl⟩ <;> norm_num

lemma witness_cut : ([20, 30, 40] : List ℝ).getD (([20, 30, 40] : List ℝ).length - 1) 0 < fCut (thetaOf 1 (1 / 32) 0 0) := by
  unfold fCut thetaOf
  dsimp only
  rw [witness_M]
  norm_num [gt, G, MSUN, C]

/-- witness: chirp mass 1, symmetric mass ratio 1/32 (total mass 8, cutoff at 5 kHz), no spins, as shipped -/
example (D tc phic : ℝ) (hD : 0 < D) : ContDiffAt ℝ 1 (fun p : Fin 7 → ℝ =>
    (gen_IMRPhenomD (qnmTable 1.2e-7) [20, 30, 40] [p 0, p 1, p 2, p 3, p 4, p 5, p 6] 20).getD 1 0)
    ![1, 1 / 32, 0, 0, D, tc, phic] :=
  C104_strain _ (C93_shipped (by norm_num) (by norm_num)) 1 (1 / 32) 0 0 D tc phic 20 (by norm_num) (by norm_num)
    (by norm_num) (by norm_num) (by norm_num) (Or.inr (by norm_num)) witness_node hD [20, 30, 40] witness_grid 1 (by simp)
    (by simp) (by norm_num) (Or.inl witness_cut)

/-- At a node of the tables the gradient can jump: for masses 40 and 10 with equal spins there is a spin between -0.5 and 0.8 at
    which the ringdown frequency is not differentiable in the spin. -/
theorem C104_kink {eps : ℝ} (he : 0 ≤ eps) (he' : eps < 4e-6) :
    ∃ c : ℝ, -0.5 ≤ c ∧ c ≤ 0.8 ∧ remnantSpinOf ⟨40, 10, c, c⟩ ∈ (qnmTable eps).a ∧
      ¬ DifferentiableAt ℝ (fun x => (get_fRD_fdamp (qnmTable eps) 40 10 x x).1) c := by
  obtain ⟨k, hk, k1, k2, hne⟩ := tableRD_bend eps
  have hq := C93_shipped he he'
  obtain ⟨-, -, -, -, -, -, -, len, val, -⟩ := C93_tables eps
  obtain ⟨r, er⟩ : ∃ r : ℝ → ℝ, ∀ x, remnantSpinOf ⟨40, 10, x, x⟩ = r x := ⟨_, fun _ => rfl⟩
  have hr : ∀ x, r x = FinalSpin0815_s 0.16 (0.68 * x) := by
    intro x
    rw [← er]
    change FinalSpin0815_s (40 * 10 / (40 + 10) ^ 2) ((x * 40 ^ 2 + x * 10 ^ 2) / (40 + 10) ^ 2) = _
    rw [show (40 * 10 / (40 + 10) ^ 2 : ℝ) = 0.16 by norm_num,
      show (x * 40 ^ 2 + x * 10 ^ 2) / (40 + 10) ^ 2 = 0.68 * x by ring]
  have hd : ∀ x, HasDerivAt r (0.16 * (0.68 * (1 / 0.16 - 0.0850917821418767 - 5.837029316602263 * 0.16) +
      2 * 0.68 ^ 2 * (0.1014665242971878 - 2.0967746996832157 * 0.16) * x +
      3 * 0.68 ^ 3 * (-1.3546806617824356 + 4.108962025369336 * 0.16) * x ^ 2 +
      4 * 0.68 ^ 4 * (-0.8676969352555539 + 2.064046835273906 * 0.16) * x ^ 3)) x := by
    intro x
    have h1 : HasDerivAt (fun x : ℝ => x) 1 x := hasDerivAt_id x
    have e : r = fun x => 0.16 * (3.4641016151377544 - 4.399247300629289 * 0.16 + 9.397292189321194 * 0.16 ^ 2 -
        13.180949901606242 * 0.16 ^ 3 + (0.68 * (1 / 0.16 - 0.0850917821418767 - 5.837029316602263 * 0.16) * x +
        0.68 ^ 2 * (0.1014665242971878 - 2.0967746996832157 * 0.16) * x ^ 2 +
        0.68 ^ 3 * (-1.3546806617824356 + 4.108962025369336 * 0.16) * x ^ 3 +
        0.68 ^ 4 * (-0.8676969352555539 + 2.064046835273906 * 0.16) * x ^ 4)) := by
      funext x
      rw [hr]
      unfold FinalSpin0815_s
      ring
    rw [e]
    have h := (((((h1.const_mul (0.68 * (1 / 0.16 - 0.0850917821418767 - 5.837029316602263 * 0.16) : ℝ)).add
      ((hasDerivAt_pow 2 x).const_mul (0.68 ^ 2 * (0.1014665242971878 - 2.0967746996832157 * 0.16) : ℝ))).add
      ((hasDerivAt_pow 3 x).const_mul (0.68 ^ 3 * (-1.3546806617824356 + 4.108962025369336 * 0.16) : ℝ))).add
      ((hasDerivAt_pow 4 x).const_mul (0.68 ^ 4 * (-0.8676969352555539 + 2.064046835273906 * 0.16) : ℝ))).const_add
      (3.4641016151377544 - 4.399247300629289 * 0.16 + 9.397292189321194 * 0.16 ^ 2 -
        13.180949901606242 * 0.16 ^ 3 : ℝ)).const_mul (0.16 : ℝ)
    refine h.congr_deriv ?_
    push_cast
    ring
  have cont : Continuous r := continuous_iff_continuousAt.2 fun x => (hd x).continuousAt
  obtain ⟨c, ⟨c1, c2⟩, hc⟩ : -1 + 2 * ((k + 1 : ℕ) : ℝ) / 499999 ∈ r '' Icc (-0.5) 0.8 := by
    refine intermediate_value_Icc (by norm_num) cont.continuousOn ⟨le_trans ?_ k1.le, k2.le.trans ?_⟩ <;>
    · rw [hr]
      norm_num [FinalSpin0815_s]
  refine ⟨c, c1, c2, ?_, ?_⟩
  · rw [er, hc, ← val (k + 1) (by omega)]
    exact Jnp.getD_mem (by rw [len]; omega)
  have pos : ∀ x : ℝ, -1 ≤ x → x ≤ 1 → 0 < 0.16 * (0.68 * (1 / 0.16 - 0.0850917821418767 - 5.837029316602263 * 0.16) +
      2 * 0.68 ^ 2 * (0.1014665242971878 - 2.0967746996832157 * 0.16) * x +
      3 * 0.68 ^ 3 * (-1.3546806617824356 + 4.108962025369336 * 0.16) * x ^ 2 +
      4 * 0.68 ^ 4 * (-0.8676969352555539 + 2.064046835273906 * 0.16) * x ^ 3) := by
    intro x x1 x2
    have h2 : x ^ 2 ≤ 1 := by clear * - x1 x2; nlinarith
    have h3 : x ^ 3 ≤ 1 := by
      clear * - x1 x2 h2
      nlinarith [mul_nonneg (sub_nonneg.2 h2) (sq_nonneg x), sq_nonneg x]
    norm_num
    linarith
  have cc : -1 < c ∧ c < 1 := ⟨lt_of_lt_of_le (by norm_num) c1, lt_of_le_of_lt c2 (by norm_num)⟩
  have mono : StrictMonoOn r (Icc (-1) 1) := by
    refine strictMonoOn_of_deriv_pos (convex_Icc _ _) cont.continuousOn fun x hx => ?_
    rw [interior_Icc] at hx
    rw [(hd x).deriv]
    exact pos x hx.1.le hx.2.le
  have g1 := val k (by omega)
  have g2 := val (k + 1) (by omega)
  have g3 := val (k + 2) (by omega)
  have l0 : k + 1 < (qnmTable eps).a.length := by rw [len]; omega
  have l1 : k + 1 + 1 < (qnmTable eps).a.length := by rw [len]; omega
  intro hdiff
  have F : XAS.SmoothFam (fun x : ℝ => Theta.mk 40 10 x x) c :=
    ⟨contDiffAt_const, contDiffAt_const, contDiffAt_id, contDiffAt_id,
      ⟨by norm_num, by norm_num, abs_le.2 ⟨cc.1.le, cc.2.le⟩, abs_le.2 ⟨cc.1.le, cc.2.le⟩⟩, by norm_num⟩
  have dE := F.Erad_smooth.differentiableAt (by simp)
  refine not_diff_of_kink (I := fun v => Jnp.interp eps v (qnmTable eps).a (qnmTable eps).fRD) (hd c)
    (pos c cc.1.le cc.2.le) hc ?_ (x0 := -1 + 2 * (k : ℝ) / 499999) (x2 := -1 + 2 * ((k + 2 : ℕ) : ℝ) / 499999)
    (y := (qnmTable eps).fRD.getD (k + 1) 0)
    (s1 := ((qnmTable eps).fRD.getD (k + 1) 0 - (qnmTable eps).fRD.getD k 0) * (499999 / 2))
    (s2 := ((qnmTable eps).fRD.getD (k + 2) 0 - (qnmTable eps).fRD.getD (k + 1) 0) * (499999 / 2)) ?_ ?_ ?_ ?_ ?_ ?_
  · filter_upwards [Ioo_mem_nhds cc.1 cc.2] with d hd
    constructor
    · intro h
      rw [← hc]
      exact (mono.le_iff_le ⟨cc.1.le, cc.2.le⟩ ⟨hd.1.le, hd.2.le⟩).2 h
    · intro h
      rw [← hc]
      exact (mono.le_iff_le ⟨hd.1.le, hd.2.le⟩ ⟨cc.1.le, cc.2.le⟩).2 h
  · push_cast; linarith
  · push_cast; linarith
  · intro v h1 h2
    rw [← g1] at h1
    rw [← g2] at h2
    rw [interp_cell he hq.good _ l0 h1 h2, g1, g2]
    push_cast
    field_simp
    ring
  · intro v h1 h2
    rw [← g2] at h1
    rw [← g3] at h2
    rw [interp_cell he hq.good _ l1 h1 h2, show k + 1 + 1 = k + 2 from rfl, g2, g3]
    push_cast
    field_simp
    ring
  · intro h
    exact hne (mul_right_cancel₀ (by norm_num) h)
  · have hM : (0 : ℝ) < 40 * gt + 10 * gt := add_pos (mul_pos (by norm_num) gt_pos) (mul_pos (by norm_num) gt_pos)
    have ev : (fun d => Jnp.interp eps (r d) (qnmTable eps).a (qnmTable eps).fRD) =ᶠ[𝓝 c] fun x =>
        (get_fRD_fdamp (qnmTable eps) 40 10 x x).1 * (40 * gt + 10 * gt) *
          (1 - EradRational0815 (40 * gt * (10 * gt) / (40 * gt + 10 * gt) ^ 2) x x) := by
      filter_upwards [Ioo_mem_nhds cc.1 cc.2] with x hx
      have hx' := abs_le.2 ⟨hx.1.le, hx.2.le⟩
      have hE := XAS.etaOf_range (theta := ⟨40, 10, x, x⟩) ⟨by norm_num, by norm_num, hx', hx'⟩
      have hlt := Erad_lt _ x x hE.1 hE.2 hx' hx'
      change EradRational0815 (40 * gt * (10 * gt) / (40 * gt + 10 * gt) ^ 2) x x < 1 / 5 at hlt
      have h1 : 1 - EradRational0815 (40 * gt * (10 * gt) / (40 * gt + 10 * gt) ^ 2) x x ≠ 0 := by
        intro h
        linarith
      change _ = Jnp.interp eps (PhenomD.remnantSpin ⟨40, 10, x, x⟩) (qnmTable eps).a (qnmTable eps).fRD /
        (1 - EradRational0815 (40 * gt * (10 * gt) / (40 * gt + 10 * gt) ^ 2) x x) / (40 * gt + 10 * gt) *
        (40 * gt + 10 * gt) * _
      rw [remnantSpin_eq, er, div_mul_cancel₀ _ hM.ne', div_mul_cancel₀ _ h1]
    exact ((hdiff.mul_const _).mul (dE.const_sub 1)).congr_of_eventuallyEq ev

end Ripple

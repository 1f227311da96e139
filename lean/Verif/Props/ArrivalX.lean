/-
  Property theorems C120: when the merger of IMRPhenomXAS arrives.
-/
import Verif.Proofs.Arrival
import Verif.Proofs.ArrivalXNum
import Verif.Proofs.XASPeak
import Verif.Props.XASGrad
import Verif.Props.XASPos

namespace Ripple
open Set Filter Topology XAS

namespace XAS

/-- the slope added to the phase -/
lemma phase_slope_eq {theta : Theta} (h : theta.Physical) (T : Table) :
    let M := (theta.m1 + theta.m2) * gt
    let c := get_cutoff_fMs theta.m1 theta.m2 theta.chi1 theta.chi2
    deriv (fun f => Phase f theta T) ((c.fRD - c.fdamp) / M) + M * phase_slope theta T =
      -(2 * Real.pi * M * peakDelay (Spec.nu theta.m1 theta.m2) (Spec.shat theta.m1 theta.m2 theta.chi1 theta.chi2)
        ((theta.chi1 - theta.chi2) * (Spec.muH theta.m1 theta.m2 - Spec.muL theta.m1 theta.m2))) := by
  intro M c
  obtain ⟨e1, e2, e3⟩ := dOf_spec h
  have e4 := etaOf_spec theta
  have hSt : stotOf theta = Spec.shat theta.m1 theta.m2 theta.chi1 theta.chi2 := by
    unfold stotOf Spec.shat
    rw [e1, e2]
  rw [← hSt, ← e4, ← e3]
  have hM : 0 < M := mul_pos (add_pos h.m1_pos h.m2_pos) gt_pos
  have hMs : theta.m1 * gt + theta.m2 * gt = M := by ring
  have key : phase_slope theta T = (calc_phaseatpeak (etaOf theta) (stotOf theta) (theta.chi1 - theta.chi2) (dOf theta)).2.1
      - deriv (fun f => Phase f theta T) ((c.fRD - c.fdamp) / M) / M
      - 2 * PI * (500 + (calc_phaseatpeak (etaOf theta) (stotOf theta) (theta.chi1 - theta.chi2) (dOf theta)).2.2) := by
    rw [← hMs]
    rfl
  rw [key]
  unfold calc_phaseatpeak peakDelay
  simp only []
  have := Real.pi_pos
  simp only [PI]
  field_simp
  ring

/-- the arrival, for any amplitude that is differentiable and not zero there -/
lemma arrives_X {theta : Theta} (h : theta.Physical) (P A : Table) (D tc phic f_ref : ℝ)
    (hA : DifferentiableAt ℝ (fun f => Amp f theta A D) (((get_cutoff_fMs theta.m1 theta.m2 theta.chi1 theta.chi2).fRD -
      (get_cutoff_fMs theta.m1 theta.m2 theta.chi1 theta.chi2).fdamp) / ((theta.m1 + theta.m2) * gt)))
    (h0 : Amp (((get_cutoff_fMs theta.m1 theta.m2 theta.chi1 theta.chi2).fRD -
      (get_cutoff_fMs theta.m1 theta.m2 theta.chi1 theta.chi2).fdamp) / ((theta.m1 + theta.m2) * gt)) theta A D ≠ 0) :
    Arrives (strainAt theta P A D tc phic f_ref) (((get_cutoff_fMs theta.m1 theta.m2 theta.chi1 theta.chi2).fRD -
      (get_cutoff_fMs theta.m1 theta.m2 theta.chi1 theta.chi2).fdamp) / ((theta.m1 + theta.m2) * gt))
      (-tc + (theta.m1 + theta.m2) * gt * peakDelay (Spec.nu theta.m1 theta.m2) (Spec.shat theta.m1 theta.m2 theta.chi1 theta.chi2)
        ((theta.chi1 - theta.chi2) * (Spec.muH theta.m1 theta.m2 - Spec.muL theta.m1 theta.m2))) := by
  set M := (theta.m1 + theta.m2) * gt with hMd
  set c := get_cutoff_fMs theta.m1 theta.m2 theta.chi1 theta.chi2 with hc
  set f := (c.fRD - c.fdamp) / M with hf
  have hM : 0 < M := mul_pos (add_pos h.m1_pos h.m2_pos) gt_pos
  obtain ⟨p1, p2⟩ := peak_range h
  obtain ⟨-, ⟨q1, q2, -⟩, -⟩ := C92_regions_ordered theta h
  have hlo : 0 < f := div_pos (by
    have : (0 : ℝ) < fPhase1 theta := lt_trans (by norm_num) q1
    exact (this.trans q2).trans p1) hM
  have hhi : f < 0.3 / M := (div_lt_div_iff_of_pos_right hM).2 p2
  have hd : HasDerivAt (fun f => Phase f theta P) (deriv (fun f => Phase f theta P) f) f :=
    (((C62_phase_C1_physical theta h P).differentiableOn one_ne_zero f ⟨hlo, hhi⟩).differentiableAt
      (Ioo_mem_nhds hlo hhi)).hasDerivAt
  have hl : HasDerivAt (fun x : ℝ => phase_slope theta P * (x * M)) (phase_slope theta P * M) f := by
    simpa using ((hasDerivAt_id f).mul_const M).const_mul (phase_slope theta P)
  have ht : HasDerivAt (fun x : ℝ => 2 * PI * x * tc - phic) (2 * PI * tc) f := by
    simpa using (((hasDerivAt_id f).const_mul (2 * PI)).mul_const tc).sub_const phic
  have hs := (((hd.add hl).add ht).neg)
  set k : ℂ := Complex.exp (Complex.I * ((-(Phase f_ref theta P + phase_slope theta P * (f_ref * M)) + PI / 4 + PI - 2 * PI : ℝ) : ℂ))
    with hk
  have hMs : PhenomD.Ms theta = M := (PhenomD.Ms_eq theta).symm
  have := arrives_polar (h := strainAt theta P A D tc phic f_ref) hA h0 (k := k) (Complex.exp_ne_zero _) hs (by
    filter_upwards with x
    unfold strainAt psiAt
    rw [hMs, mul_left_comm k, hk, ← Complex.exp_add]
    congr 2
    simp only [Pi.neg_apply, Pi.add_apply]
    push_cast
    ring)
  convert this using 1
  have e := phase_slope_eq h P
  simp only at e
  rw [← hMd, ← hc, ← hf] at e
  have hpi := Real.pi_pos
  rw [eq_div_iff (by positivity)]
  simp only [PI]
  linear_combination e

lemma k_box : 0.15915 ≤ 1 / (2 * Real.pi) ∧ 1 / (2 * Real.pi) ≤ 0.159156 := by
  have a := Real.pi_gt_d6
  have b := Real.pi_lt_d6
  constructor
  · rw [le_div_iff₀ (by positivity)]; norm_num at *; linarith
  · rw [div_le_iff₀ (by positivity)]; norm_num at *; linarith

/-- the fitted delay of every binary -/
lemma peakDelay_range {theta : Theta} (h : theta.Physical) :
    -2.5 < peakDelay (Spec.nu theta.m1 theta.m2) (Spec.shat theta.m1 theta.m2 theta.chi1 theta.chi2)
        ((theta.chi1 - theta.chi2) * (Spec.muH theta.m1 theta.m2 - Spec.muL theta.m1 theta.m2)) ∧
    peakDelay (Spec.nu theta.m1 theta.m2) (Spec.shat theta.m1 theta.m2 theta.chi1 theta.chi2)
        ((theta.chi1 - theta.chi2) * (Spec.muH theta.m1 theta.m2 - Spec.muL theta.m1 theta.m2)) < 55 := by
  obtain ⟨e1, e2, e3⟩ := dOf_spec h
  have e4 := etaOf_spec theta
  have hSt : stotOf theta = Spec.shat theta.m1 theta.m2 theta.chi1 theta.chi2 := by
    unfold stotOf Spec.shat
    rw [e1, e2]
  rw [← hSt, ← e4, ← e3]
  obtain ⟨d0, d1, hd⟩ := dOf_range h
  have hS := stotOf_range h
  have hx := dchi_range h
  have he := eta_box h
  have hz : etaOf theta ^ 2 * dOf theta ≤ 0.0179 := by
    rw [hd]
    generalize dOf theta = d at *
    have hb : 0 ≤ d ∧ d ≤ 1 := ⟨d0, d1.le⟩
    have : 0 < 0.0179 - ((1 - d ^ 2) / 4) ^ 2 * d := by interval_bnb [hb] []
    linarith
  have hz0 : 0 ≤ etaOf theta ^ 2 * dOf theta := by positivity
  have e : peakDelay (etaOf theta) (stotOf theta) ((theta.chi1 - theta.chi2) * dOf theta) =
      pdk (etaOf theta) (stotOf theta) (etaOf theta ^ 2 * ((theta.chi1 - theta.chi2) * dOf theta)) (1 / (2 * Real.pi)) := by
    unfold peakDelay pdk
    ring
  rw [e]
  generalize dOf theta = d at *
  generalize theta.chi1 - theta.chi2 = x at *
  generalize etaOf theta = n at *
  refine pd_all _ _ _ (x * d) _ he hS k_box ⟨by nlinarith, by nlinarith⟩ rfl ⟨?_, ?_⟩
  · have := mul_nonneg hz0 (sub_nonneg.2 hx.1)
    norm_num at *; nlinarith
  · have := mul_nonneg hz0 (sub_nonneg.2 hx.2)
    norm_num at *; nlinarith

end XAS

/-! ### C120 -/

/-- The frequency one damping width below the ringdown frequency arrives at MINUS the coalescence time given, plus a fitted multiple of
    the total mass.  Mass ratios up to 20, any aligned spins. -/
theorem C120_XAS (Mc eta chi1 chi2 D tc phic f_ref : ℝ) (hMc : 0 < Mc) (he : 20 / 441 ≤ eta) (he' : eta ≤ 1 / 4) (h1 : |chi1| ≤ 1)
    (h2 : |chi2| ≤ 1) (hD : 0 < D) :
    let m := Mc_eta_to_ms Mc eta
    let M := (m.1 + m.2) * gt
    let c := get_cutoff_fMs m.1 m.2 chi1 chi2
    let W := peakDelay (Spec.nu m.1 m.2) (Spec.shat m.1 m.2 chi1 chi2) ((chi1 - chi2) * (Spec.muH m.1 m.2 - Spec.muL m.1 m.2))
    0 < M ∧ 0 < c.fRD - c.fdamp ∧ c.fRD - c.fdamp < 0.3 ∧ -2.5 < W ∧ W < 55 ∧
    ∃ h : ℝ → ℂ, (∀ grid : List ℝ, gen_IMRPhenomXAS grid [Mc, eta, chi1, chi2, D, tc, phic] f_ref = grid.map h) ∧
      Arrives h ((c.fRD - c.fdamp) / M) (-tc + M * W) := by
  have he0 : 0 < eta := by linarith
  have hph := thetaOf_physical (chi1 := chi1) (chi2 := chi2) hMc he0 he' h1 h2
  intro m M c W
  have hM : 0 < M := mul_pos (add_pos hph.m1_pos hph.m2_pos) gt_pos
  obtain ⟨p1, p2⟩ := peak_range hph
  obtain ⟨-, ⟨q1, q2, -⟩, -⟩ := C92_regions_ordered _ hph
  have hlo : 0 < c.fRD - c.fdamp := by
    have : (0 : ℝ) < fPhase1 (thetaOf Mc eta chi1 chi2) := lt_trans (by norm_num) q1
    exact (this.trans q2).trans p1
  have hd : dOf (thetaOf Mc eta chi1 chi2) ≤ 0.905 := by
    obtain ⟨d0, -, hd⟩ := dOf_range hph
    rw [etaOf_thetaOf hMc he0 he'] at hd
    norm_num
    nlinarith
  have hg := sp_good hph hd
  obtain ⟨w1, w2⟩ := peakDelay_range hph
  refine ⟨hM, hlo, p2, w1, w2, _, fun grid => genX_eq grid Mc eta chi1 chi2 D tc phic [] f_ref,
    arrives_X hph _ _ D tc phic f_ref ?_ ?_⟩
  · have hlo' := div_pos hlo hM
    have hhi' := (div_lt_div_iff_of_pos_right hM).2 p2
    exact ((hg.amp_C1 hph hD).differentiableOn one_ne_zero _ ⟨hlo', hhi'⟩).differentiableAt (Ioo_mem_nhds hlo' hhi')
  · refine (hg.amp_pos hph hD (div_pos hlo hM) ?_).ne'
    rw [← PhenomD.Ms_eq]
    change (c.fRD - c.fdamp) / M * M ≤ _
    rw [div_mul_cancel₀ _ hM.ne']
    exact p2.le

/-- Without spins, for every mass ratio: between 4.1 and 11.3 total masses after minus the coalescence time. -/
theorem C120_XAS_nonspinning (Mc eta D tc phic f_ref : ℝ) (hMc : 0 < Mc) (he : 0 < eta) (he' : eta ≤ 1 / 4) (hD : 0 < D) :
    let m := Mc_eta_to_ms Mc eta
    let M := (m.1 + m.2) * gt
    let c := get_cutoff_fMs m.1 m.2 0 0
    0 < M ∧ 0 < c.fRD - c.fdamp ∧ c.fRD - c.fdamp < 0.3 ∧
    ∃ h : ℝ → ℂ, (∀ grid : List ℝ, gen_IMRPhenomXAS grid [Mc, eta, 0, 0, D, tc, phic] f_ref = grid.map h) ∧
      ∃ t, Arrives h ((c.fRD - c.fdamp) / M) t ∧ -tc + 4.1 * M < t ∧ t < -tc + 11.3 * M := by
  have hph := thetaOf_physical (chi1 := 0) (chi2 := 0) hMc he he' (by simp) (by simp)
  intro m M c
  have hM : 0 < M := mul_pos (add_pos hph.m1_pos hph.m2_pos) gt_pos
  obtain ⟨p1, p2⟩ := peak_range hph
  obtain ⟨-, ⟨q1, q2, -⟩, -⟩ := C92_regions_ordered _ hph
  have hlo : 0 < c.fRD - c.fdamp := by
    have : (0 : ℝ) < fPhase1 (thetaOf Mc eta 0 0) := lt_trans (by norm_num) q1
    exact (this.trans q2).trans p1
  have hg := ns_good hph rfl rfl
  refine ⟨hM, hlo, p2, _, fun grid => genX_eq grid Mc eta 0 0 D tc phic [] f_ref, _,
    arrives_X hph _ _ D tc phic f_ref ?_ ?_, ?_⟩
  · have hlo' := div_pos hlo hM
    have hhi' := (div_lt_div_iff_of_pos_right hM).2 p2
    exact ((hg.amp_C1 hph hD).differentiableOn one_ne_zero _ ⟨hlo', hhi'⟩).differentiableAt (Ioo_mem_nhds hlo' hhi')
  · refine (hg.amp_pos hph hD (div_pos hlo hM) ?_).ne'
    rw [← PhenomD.Ms_eq]
    change (c.fRD - c.fdamp) / M * M ≤ _
    rw [div_mul_cancel₀ _ hM.ne']
    exact p2.le
  · have e : peakDelay (Spec.nu (thetaOf Mc eta 0 0).m1 (thetaOf Mc eta 0 0).m2)
        (Spec.shat (thetaOf Mc eta 0 0).m1 (thetaOf Mc eta 0 0).m2 (thetaOf Mc eta 0 0).chi1 (thetaOf Mc eta 0 0).chi2)
        (((thetaOf Mc eta 0 0).chi1 - (thetaOf Mc eta 0 0).chi2) * (Spec.muH (thetaOf Mc eta 0 0).m1 (thetaOf Mc eta 0 0).m2
          - Spec.muL (thetaOf Mc eta 0 0).m1 (thetaOf Mc eta 0 0).m2)) = pdk (etaOf (thetaOf Mc eta 0 0)) 0 0 (1 / (2 * Real.pi)) := by
      rw [← etaOf_spec, show Spec.shat (thetaOf Mc eta 0 0).m1 (thetaOf Mc eta 0 0).m2 (thetaOf Mc eta 0 0).chi1
        (thetaOf Mc eta 0 0).chi2 = 0 by unfold Spec.shat thetaOf; simp,
        show (thetaOf Mc eta 0 0).chi1 - (thetaOf Mc eta 0 0).chi2 = 0 from sub_self _]
      unfold peakDelay pdk
      ring
    rw [e]
    obtain ⟨b1, b2⟩ := pn_all _ _ (eta_box hph) k_box
    change _ < -tc + M * _ ∧ -tc + M * _ < _
    constructor <;> nlinarith

/-- the hypotheses of the general statement are met by mass ratio 20 with nearly extremal opposite spins -/
example : (20 : ℝ) / 441 ≤ 20 / 441 ∧ (20 : ℝ) / 441 ≤ 1 / 4 ∧ |(0.99 : ℝ)| ≤ 1 ∧ |(-0.99 : ℝ)| ≤ 1 := by norm_num [abs_le]

end Ripple

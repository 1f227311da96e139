/-
  The phase of the strain of IMRPhenomXAS, with the shift that aligns the peak and the reference phase, is continuously
  differentiable in all parameters and the frequency together.
-/
import Verif.Proofs.XASGrad
import Verif.Proofs.XASPeak
import Verif.Proofs.XASGen

namespace Ripple
open scoped ContDiff Topology
open Filter

namespace XAS

/-- slope of the phase in its ringdown region -/
lemma slope_contR (t : Theta) (h1 : 0 < fPhase1 t) (h12 : fPhase1 t < fPhase2 t) {x : ℝ} (h2 : fPhase2 t < x) (h3 : x < 0.3)
    (hM : t.m1 * gt + t.m2 * gt ≠ 0) :
    deriv (fun f => Phase f t PhenomX_phase_coeff_table) (x / (t.m1 * gt + t.m2 * gt)) =
      1 / etaOf t * ((deriv (rawR t) x + beta1 t) * (t.m1 * gt + t.m2 * gt)) := by
  have k := (glued_slope (I := rawI t) (N := rawN t) (R := rawR t) (fun x hx => cd_int t PhenomX_phase_coeff_table _ _ _ hx)
    (fun x hx => cd_rd t PhenomX_phase_coeff_table hx) (fc := fM_CUT) h1 h12 (alpha1 t) (alpha0 t) (beta1 t) (beta0 t)).2 x h2 h3
  rw [← hd_scaled hM k]
  congr 1
  funext f
  exact Phase_eq f t

namespace SmoothFam
variable {E : Type} [NormedAddCommGroup E] [NormedSpace ℝ E] {θ : E → Theta} {e0 : E}

lemma eta_ne (h : SmoothFam θ e0) : etaOf (θ e0) ≠ 0 := (etaOf_range h.phys).1.ne'

lemma total (h : SmoothFam θ e0) : ContDiffAt ℝ ∞ (fun e => (θ e).m1 * gt + (θ e).m2 * gt) e0 := by
  have := h.m1
  have := h.m2
  fun_prop

/-- the slope of the linear phase shift -/
lemma phase_slope_smooth (h : SmoothFam θ e0) :
    ContDiffAt ℝ ∞ (fun e => phase_slope (θ e) PhenomX_phase_coeff_table) e0 := by
  have he := h.eta
  have hd := h.dd
  have hs := h.stot
  have c1 := h.chi1
  have c2 := h.chi2
  have hr := h.fRD
  have hw := h.fdamp
  have p := peak_range h.phys
  have hx : ContDiffAt ℝ ∞ (fun e => (cut (θ e)).fRD - (cut (θ e)).fdamp) e0 := hr.sub hw
  have hR := smooth_deriv (G := fun e => rawR (θ e)) (h.rawR_smooth (h.f2_pos.trans p.1)) hx
  have hl : ContDiffAt ℝ ∞ (fun e => (calc_phaseatpeak (etaOf (θ e)) (stotOf (θ e)) ((θ e).chi1 - (θ e).chi2) (dOf (θ e))).2.1) e0 := by
    unfold calc_phaseatpeak
    dsimp only
    fun_prop
  have hp : ContDiffAt ℝ ∞ (fun e => (calc_phaseatpeak (etaOf (θ e)) (stotOf (θ e)) ((θ e).chi1 - (θ e).chi2) (dOf (θ e))).2.2) e0 := by
    unfold calc_phaseatpeak
    dsimp only
    fun_prop
  have hM := h.total
  have main : ContDiffAt ℝ ∞ (fun e => (calc_phaseatpeak (etaOf (θ e)) (stotOf (θ e)) ((θ e).chi1 - (θ e).chi2) (dOf (θ e))).2.1 -
      1 / etaOf (θ e) * ((deriv (rawR (θ e)) ((cut (θ e)).fRD - (cut (θ e)).fdamp) + beta1 (θ e)) *
        ((θ e).m1 * gt + (θ e).m2 * gt)) / ((θ e).m1 * gt + (θ e).m2 * gt) - 2 * PI * (500 +
      (calc_phaseatpeak (etaOf (θ e)) (stotOf (θ e)) ((θ e).chi1 - (θ e).chi2) (dOf (θ e))).2.2)) e0 :=
    (hl.sub ((((contDiffAt_const.div he h.eta_ne).mul ((hR.add h.beta1_smooth).mul hM))).div hM h.mass_ne)).sub
      (contDiffAt_const.mul (contDiffAt_const.add hp))
  refine main.congr_of_eventuallyEq ?_
  filter_upwards [h.f1.continuousAt.eventually_const_lt h.f1_pos, h.f1.continuousAt.eventually_lt h.f2.continuousAt h.f12,
    h.f2.continuousAt.eventually_lt hx.continuousAt p.1, hx.continuousAt.eventually_lt_const p.2,
    hM.continuousAt.eventually_ne h.mass_ne] with e a b c d g
  rw [← slope_contR (θ e) a b c d g]
  rfl

/-- the phase of a sample of the strain -/
lemma psi_C1 (h : SmoothFam θ e0) {f fr tc phic : E → ℝ} (hf : ContDiffAt ℝ ∞ f e0) (hfr : ContDiffAt ℝ ∞ fr e0)
    (ht : ContDiffAt ℝ ∞ tc e0) (hp : ContDiffAt ℝ ∞ phic e0) (f0 : 0 < f e0) (fr0 : 0 < fr e0)
    (fc : f e0 * (((θ e0).m1 + (θ e0).m2) * gt) < 0.3) (frc : fr e0 * (((θ e0).m1 + (θ e0).m2) * gt) < 0.3) :
    ContDiffAt ℝ 1 (fun e => psiAt (θ e) PhenomX_phase_coeff_table (tc e) (phic e) (fr e) (f e)) e0 := by
  have a := h.Phase_C1 hf f0 fc
  have b := h.Phase_C1 hfr fr0 frc
  have s := h.phase_slope_smooth.of_le (m := 1) (by simp)
  have hM : ContDiffAt ℝ 1 (fun e => PhenomD.Ms (θ e)) e0 := h.total.of_le (by simp)
  have f1 := hf.of_le (m := 1) (by simp)
  have f2 := hfr.of_le (m := 1) (by simp)
  have t1 := ht.of_le (m := 1) (by simp)
  have p1 := hp.of_le (m := 1) (by simp)
  unfold psiAt
  exact (((((a.add (s.mul (f1.mul hM))).sub (b.add (s.mul (f2.mul hM)))).add contDiffAt_const).add contDiffAt_const).sub
    contDiffAt_const).add (((contDiffAt_const.mul f1).mul t1).sub p1)

end SmoothFam
end XAS
end Ripple

/-
  Smoothness in the binary parameters of the quantities the IMRPhenomD model is built from.
-/
import Verif.Proofs.XASSmooth
import Verif.Props.PhenomDPhys
import Mathlib.Analysis.Calculus.Deriv.Abs

namespace Ripple
open scoped ContDiff Topology
open Filter XAS

namespace PhenomD

/-- linear interpolation in a table is smooth away from the nodes -/
lemma interp_smooth {eps : ℝ} (he : 0 ≤ eps) {xp : List ℝ} (h : GoodGrid eps xp) (fp : List ℝ) {x : ℝ} (hx : x ∉ xp) :
    ContDiffAt ℝ ∞ (fun y => Jnp.interp eps y xp fp) x := by
  have hlen := h.1
  have ne : ∀ k, k < xp.length → xp.getD k 0 ≠ x := fun k hk e => hx (e ▸ Jnp.getD_mem hk)
  rcases h.cover x with h1 | h1 | ⟨k, hk, h1, h2⟩
  · refine (contDiffAt_const (c := fp.getD 0 0)).congr_of_eventuallyEq ?_
    filter_upwards [Iio_mem_nhds (lt_of_le_of_ne h1 (ne 0 (by omega)).symm)] with y hy
    exact interp_left he h fp (le_of_lt hy)
  · refine (contDiffAt_const (c := fp.getD (xp.length - 1) 0)).congr_of_eventuallyEq ?_
    filter_upwards [Ioi_mem_nhds (lt_of_le_of_ne h1 (ne _ (by omega)))] with y hy
    exact interp_right he h fp (le_of_lt hy)
  · have main : ContDiffAt ℝ ∞ (fun y => fp.getD k 0 +
        (y - xp.getD k 0) / (xp.getD (k + 1) 0 - xp.getD k 0) * (fp.getD (k + 1) 0 - fp.getD k 0)) x := by
      refine contDiffAt_const.add (ContDiffAt.mul (ContDiffAt.div_const ?_ _) contDiffAt_const)
      exact contDiffAt_id.sub contDiffAt_const
    refine main.congr_of_eventuallyEq ?_
    filter_upwards [Ioo_mem_nhds (lt_of_le_of_ne h1 (ne k (by omega))) (lt_of_le_of_ne h2 (ne _ hk).symm)] with y hy
    exact interp_cell he h fp hk hy.1.le hy.2.le

variable {E : Type} [NormedAddCommGroup E] [NormedSpace ℝ E]

/-- the spin of the remnant, as computed by `get_fRD_fdamp` -/
noncomputable def remnantSpin (t : Theta) : ℝ :=
  FinalSpin0815_s (t.m1 * gt * (t.m2 * gt) / (t.m1 * gt + t.m2 * gt) ^ 2)
    ((t.chi1 * (t.m1 * gt) ^ 2 + t.chi2 * (t.m2 * gt) ^ 2) / (t.m1 * gt + t.m2 * gt) ^ 2)

/-- a smooth family of binaries whose remnant spin is not a table node, and whose ringdown amplitude is not at the threshold
    between having and not having a peak -/
structure DFam (q : QNM) (θ : E → Theta) (e0 : E) : Prop extends SmoothFam θ e0 where
  tab : q.Shipped
  node : remnantSpin (θ e0) ∉ q.a
  thr : get_coeffs (θ e0) 5 ≠ 1

end PhenomD

namespace XAS.SmoothFam
open PhenomD
variable {E : Type} [NormedAddCommGroup E] [NormedSpace ℝ E] {θ : E → Theta} {e0 : E}

/-- a smooth family stays one when a further argument is added -/
lemma fst (h : SmoothFam θ e0) (x0 : ℝ) : SmoothFam (fun p : E × ℝ => θ p.1) (e0, x0) :=
  ⟨ContDiffAt.comp (g := fun e => (θ e).m1) (e0, x0) h.m1 contDiffAt_fst,
    ContDiffAt.comp (g := fun e => (θ e).m2) (e0, x0) h.m2 contDiffAt_fst,
    ContDiffAt.comp (g := fun e => (θ e).chi1) (e0, x0) h.chi1 contDiffAt_fst,
    ContDiffAt.comp (g := fun e => (θ e).chi2) (e0, x0) h.chi2 contDiffAt_fst, h.phys, h.ne⟩

lemma Ms_smooth (h : SmoothFam θ e0) : ContDiffAt ℝ ∞ (fun e => Ms (θ e)) e0 := by
  have := h.m1
  have := h.m2
  unfold Ms
  fun_prop

lemma Ms_pos (h : SmoothFam θ e0) : 0 < Ms (θ e0) := by
  have := mul_pos h.phys.m1_pos gt_pos
  have := mul_pos h.phys.m2_pos gt_pos
  unfold Ms
  positivity

lemma frac1 (h : SmoothFam θ e0) : ContDiffAt ℝ ∞ (fun e => (θ e).m1 * gt / ((θ e).m1 * gt + (θ e).m2 * gt)) e0 :=
  (h.m1.mul contDiffAt_const).div h.Ms_smooth h.mass_ne

lemma frac2 (h : SmoothFam θ e0) : ContDiffAt ℝ ∞ (fun e => (θ e).m2 * gt / ((θ e).m1 * gt + (θ e).m2 * gt)) e0 :=
  (h.m2.mul contDiffAt_const).div h.Ms_smooth h.mass_ne

lemma eta_ne' (h : SmoothFam θ e0) : etaOf (θ e0) ≠ 0 := (etaOf_range h.phys).1.ne'

lemma coeffs (h : SmoothFam θ e0) (i : Fin 19) : ContDiffAt ℝ ∞ (fun e => get_coeffs (θ e) i) e0 := by
  have he := h.eta
  have c1 := h.chi1
  have c2 := h.chi2
  have hs : ContDiffAt ℝ ∞ (fun e => (1 - 4 * etaOf (θ e)) ^ ((1 : ℝ) / 2)) e0 :=
    ContDiffAt.rpow_const_of_ne (by fun_prop) (by have := h.eta_lt; intro; linarith)
  obtain ⟨s, es⟩ : ∃ s : E → ℝ, ∀ e, (1 - 4 * etaOf (θ e)) ^ ((1 : ℝ) / 2) = s e := ⟨_, fun _ => rfl⟩
  obtain ⟨n, en⟩ : ∃ n : E → ℝ, ∀ e, etaOf (θ e) = n e := ⟨_, fun _ => rfl⟩
  simp only [es] at hs
  simp only [en] at he
  have e0' : ∀ e, (θ e).m1 * gt * ((θ e).m2 * gt) / ((θ e).m1 * gt + (θ e).m2 * gt) ^ 2 = n e := fun e => (en e)
  have es' : ∀ e, (1 - 4 * n e) ^ ((1 : ℝ) / 2) = s e := fun e => by rw [← en]; exact es e
  unfold get_coeffs
  simp only [e0', es']
  fun_prop

lemma Erad_smooth (h : SmoothFam θ e0) : ContDiffAt ℝ ∞ (fun e => EradRational0815
    ((θ e).m1 * gt * ((θ e).m2 * gt) / ((θ e).m1 * gt + (θ e).m2 * gt) ^ 2) (θ e).chi1 (θ e).chi2) e0 := by
  have he := h.eta
  have hd := h.dd
  have c1 := h.chi1
  have c2 := h.chi2
  obtain ⟨d0, d1, -⟩ := dOf_range h.phys
  have hE := etaOf_range h.phys
  have hs : ContDiffAt ℝ ∞ (fun e => (0.5 * (1 + dOf (θ e)) * (0.5 * (1 + dOf (θ e))) * (θ e).chi1 +
      0.5 * (1 - dOf (θ e)) * (0.5 * (1 - dOf (θ e))) * (θ e).chi2) /
      (0.5 * (1 + dOf (θ e)) * (0.5 * (1 + dOf (θ e))) + 0.5 * (1 - dOf (θ e)) * (0.5 * (1 - dOf (θ e))))) e0 := by
    refine ContDiffAt.div (by fun_prop) (by fun_prop) ?_
    positivity
  have hr : |(0.5 * (1 + dOf (θ e0)) * (0.5 * (1 + dOf (θ e0))) * (θ e0).chi1 +
      0.5 * (1 - dOf (θ e0)) * (0.5 * (1 - dOf (θ e0))) * (θ e0).chi2) /
      (0.5 * (1 + dOf (θ e0)) * (0.5 * (1 + dOf (θ e0))) + 0.5 * (1 - dOf (θ e0)) * (0.5 * (1 - dOf (θ e0))))| ≤ 1 := by
    obtain ⟨p1, p2⟩ := abs_le.1 h.phys.chi1_le
    obtain ⟨q1, q2⟩ := abs_le.1 h.phys.chi2_le
    have a0 : 0 < 0.5 * (1 + dOf (θ e0)) * (0.5 * (1 + dOf (θ e0))) := by positivity
    have b0 : 0 ≤ 0.5 * (1 - dOf (θ e0)) * (0.5 * (1 - dOf (θ e0))) := mul_self_nonneg _
    generalize 0.5 * (1 + dOf (θ e0)) * (0.5 * (1 + dOf (θ e0))) = a at *
    generalize 0.5 * (1 - dOf (θ e0)) * (0.5 * (1 - dOf (θ e0))) = b at *
    rw [abs_le, le_div_iff₀ (by linarith), div_le_iff₀ (by linarith)]
    constructor <;> nlinarith
  obtain ⟨s, es⟩ : ∃ s : E → ℝ, ∀ e, (0.5 * (1 + dOf (θ e)) * (0.5 * (1 + dOf (θ e))) * (θ e).chi1 +
      0.5 * (1 - dOf (θ e)) * (0.5 * (1 - dOf (θ e))) * (θ e).chi2) /
      (0.5 * (1 + dOf (θ e)) * (0.5 * (1 + dOf (θ e))) + 0.5 * (1 - dOf (θ e)) * (0.5 * (1 - dOf (θ e)))) = s e :=
    ⟨_, fun _ => rfl⟩
  rw [es e0] at hr
  simp only [es] at hs
  have main : ContDiffAt ℝ ∞ (fun e => EradRational0815_s (etaOf (θ e)) (s e)) e0 := by
    have hc := mul_bound (b := -0.6714403054720589 - 1.4756929437702908 * etaOf (θ e0) +
        7.304676214885011 * (etaOf (θ e0) * etaOf (θ e0)))
      (B := 0.75) (abs_le.2 ⟨by nlinarith [sq_nonneg (etaOf (θ e0) - 0.101)], by nlinarith⟩) hr
    unfold EradRational0815_s
    dsimp only
    refine ContDiffAt.div (by fun_prop) (by fun_prop) ?_
    have := hc.1
    norm_num at this ⊢
    intro h0
    linarith
  refine main.congr_of_eventuallyEq (Eventually.of_forall fun e => ?_)
  dsimp only
  rw [← es]
  rfl

lemma remnant_smooth (h : SmoothFam θ e0) : ContDiffAt ℝ ∞ (fun e => remnantSpin (θ e)) e0 := by
  have he := h.eta
  have hn := h.eta_ne'
  have m1 := h.m1
  have m2 := h.m2
  have c1 := h.chi1
  have c2 := h.chi2
  have hs : ContDiffAt ℝ ∞ (fun e => ((θ e).chi1 * ((θ e).m1 * gt) ^ 2 + (θ e).chi2 * ((θ e).m2 * gt) ^ 2) /
      ((θ e).m1 * gt + (θ e).m2 * gt) ^ 2) e0 :=
    ContDiffAt.div (by fun_prop) (by fun_prop) (pow_ne_zero 2 h.mass_ne)
  obtain ⟨s, es⟩ : ∃ s : E → ℝ, ∀ e, ((θ e).chi1 * ((θ e).m1 * gt) ^ 2 + (θ e).chi2 * ((θ e).m2 * gt) ^ 2) /
      ((θ e).m1 * gt + (θ e).m2 * gt) ^ 2 = s e := ⟨_, fun _ => rfl⟩
  simp only [es] at hs
  have hi : ContDiffAt ℝ ∞ (fun e => 1 / etaOf (θ e)) e0 := contDiffAt_const.div he hn
  obtain ⟨n, en⟩ : ∃ n : E → ℝ, ∀ e, 1 / etaOf (θ e) = n e := ⟨_, fun _ => rfl⟩
  simp only [en] at hi
  have main : ContDiffAt ℝ ∞ (fun e => FinalSpin0815_s (etaOf (θ e)) (s e)) e0 := by
    unfold FinalSpin0815_s
    simp only [en]
    fun_prop
  refine main.congr_of_eventuallyEq (Eventually.of_forall fun e => ?_)
  dsimp only
  rw [← es]
  rfl

end XAS.SmoothFam

namespace PhenomD.DFam
variable {E : Type} [NormedAddCommGroup E] [NormedSpace ℝ E] {q : QNM} {θ : E → Theta} {e0 : E}

lemma fst (h : DFam q θ e0) (x0 : ℝ) : DFam q (fun p : E × ℝ => θ p.1) (e0, x0) :=
  ⟨h.toSmoothFam.fst x0, h.tab, h.node, h.thr⟩

lemma scaled (h : DFam q θ e0) {tab : List ℝ} : ContDiffAt ℝ ∞ (fun e => Jnp.interp q.eps (remnantSpin (θ e)) q.a tab /
    (1 - EradRational0815 ((θ e).m1 * gt * ((θ e).m2 * gt) / ((θ e).m1 * gt + (θ e).m2 * gt) ^ 2) (θ e).chi1 (θ e).chi2) /
      Ms (θ e)) e0 := by
  have hE := h.Erad_smooth
  have e := eta_s_range h.phys.m1_pos h.phys.m2_pos
  have hb := C26_radiated_energy _ _ _ e.1 e.2 h.phys.chi1_le h.phys.chi2_le
  have hi : ContDiffAt ℝ ∞ (fun e => Jnp.interp q.eps (remnantSpin (θ e)) q.a tab) e0 :=
    ContDiffAt.comp (f := fun e => remnantSpin (θ e)) e0 (interp_smooth h.tab.eps_nonneg h.tab.good tab h.node) h.remnant_smooth
  refine (hi.div (contDiffAt_const.sub hE) ?_).div h.Ms_smooth h.Ms_pos.ne'
  linarith [hb.2]

lemma fRD (h : DFam q θ e0) : ContDiffAt ℝ ∞ (fun e => (tfOf q (θ e)).f_RD) e0 := h.scaled
lemma fdamp (h : DFam q θ e0) : ContDiffAt ℝ ∞ (fun e => (tfOf q (θ e)).f_damp) e0 := h.scaled

lemma f1 (h : DFam q θ e0) : ContDiffAt ℝ ∞ (fun e => (tfOf q (θ e)).f1) e0 := by
  have : ContDiffAt ℝ ∞ (fun e => 0.018 / Ms (θ e)) e0 := contDiffAt_const.div h.Ms_smooth h.Ms_pos.ne'
  refine this.congr_of_eventuallyEq (Eventually.of_forall fun e => ?_)
  dsimp only
  rw [← Ms_eq]
  rfl

lemma f3 (h : DFam q θ e0) : ContDiffAt ℝ ∞ (fun e => (tfOf q (θ e)).f3) e0 := by
  have : ContDiffAt ℝ ∞ (fun e => 0.014 / Ms (θ e)) e0 := contDiffAt_const.div h.Ms_smooth h.Ms_pos.ne'
  refine this.congr_of_eventuallyEq (Eventually.of_forall fun e => ?_)
  dsimp only
  rw [← Ms_eq]
  rfl

lemma f2 (h : DFam q θ e0) : ContDiffAt ℝ ∞ (fun e => (tfOf q (θ e)).f2) e0 := contDiffAt_const.mul h.fRD

lemma regions (h : DFam q θ e0) :
    0 < (tfOf q (θ e0)).f3 ∧ (tfOf q (θ e0)).f3 < (tfOf q (θ e0)).f4 ∧ 0 < (tfOf q (θ e0)).f_damp ∧
      0 < get_coeffs (θ e0) 5 ∧ 0 < get_coeffs (θ e0) 6 := by
  obtain ⟨a, b, -, -, d, -, g, k⟩ := C74_amplitude_regions_ordered q h.tab (θ e0) h.phys
  exact ⟨a, b, d, g, k⟩

lemma phase_regions (h : DFam q θ e0) : 0 < (tfOf q (θ e0)).f1 ∧ (tfOf q (θ e0)).f1 < (tfOf q (θ e0)).f2 := by
  obtain ⟨a, b, -⟩ := C26_phase_regions_ordered q h.tab.eps_nonneg h.tab.good h.tab.len_RD h.tab.len_damp
    (fun y hy => by have := (h.tab.RD_range y hy).1; norm_num at this ⊢; linarith)
    (fun y hy => by have := (h.tab.damp_range y hy).1; norm_num at this; linarith)
    (θ e0) h.phys.m1_pos h.phys.m2_pos h.phys.chi1_le h.phys.chi2_le (get_coeffs (θ e0) 5) (get_coeffs (θ e0) 6)
  exact ⟨a, b⟩

lemma f4 (h : DFam q θ e0) : ContDiffAt ℝ ∞ (fun e => (tfOf q (θ e)).f4) e0 := by
  obtain ⟨r3, r34, -, g2, -⟩ := h.regions
  have r4 := r3.trans r34
  have hr := h.fRD
  have hd := h.fdamp
  have h2 := h.coeffs 5
  have h3 := h.coeffs 6
  rcases lt_or_gt_of_ne h.thr with ht | ht
  · have hs : ContDiffAt ℝ ∞ (fun e => Real.sqrt (1 - get_coeffs (θ e) 5 ^ 2)) e0 :=
      ContDiffAt.sqrt (by fun_prop) (by intro h0; nlinarith)
    have inner : ContDiffAt ℝ ∞ (fun e => (tfOf q (θ e)).f_RD + (tfOf q (θ e)).f_damp *
        (-1 + Real.sqrt (1 - get_coeffs (θ e) 5 ^ 2)) * get_coeffs (θ e) 6 / get_coeffs (θ e) 5) e0 :=
      hr.add (((hd.mul (contDiffAt_const.add hs)).mul h3).div h2 g2.ne')
    have hv : ∀ e, get_coeffs (θ e) 5 < 1 → (tfOf q (θ e)).f4 = |(tfOf q (θ e)).f_RD + (tfOf q (θ e)).f_damp *
        (-1 + Real.sqrt (1 - get_coeffs (θ e) 5 ^ 2)) * get_coeffs (θ e) 6 / get_coeffs (θ e) 5| :=
      fun e he => if_neg (not_le.2 he)
    have hne := r4.ne'
    rw [hv e0 ht] at hne
    refine ((contDiffAt_abs (abs_ne_zero.1 hne)).comp e0 inner).congr_of_eventuallyEq ?_
    filter_upwards [h2.continuousAt.eventually_lt_const ht] with e he
    exact hv e he
  · have inner : ContDiffAt ℝ ∞ (fun e => (tfOf q (θ e)).f_RD + -(tfOf q (θ e)).f_damp * get_coeffs (θ e) 6 /
        get_coeffs (θ e) 5) e0 :=
      hr.add ((hd.neg.mul h3).div h2 g2.ne')
    have hv : ∀ e, 1 < get_coeffs (θ e) 5 → (tfOf q (θ e)).f4 = |(tfOf q (θ e)).f_RD + -(tfOf q (θ e)).f_damp *
        get_coeffs (θ e) 6 / get_coeffs (θ e) 5| :=
      fun e he => if_pos he.le
    have hne := r4.ne'
    rw [hv e0 ht] at hne
    refine ((contDiffAt_abs (abs_ne_zero.1 hne)).comp e0 inner).congr_of_eventuallyEq ?_
    filter_upwards [h2.continuousAt.eventually_const_lt ht] with e he
    exact hv e he

end PhenomD.DFam
end Ripple

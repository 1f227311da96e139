/-
  Smoothness of the TaylorF2 waveform and of the tidal terms of the NRTidalv2 waveform in all parameters.
-/
import Verif.Proofs.DGrad
import Verif.Props.NRTidalv2
import Mathlib.Analysis.SpecialFunctions.SmoothTransition

namespace Ripple
open scoped ContDiff Topology
open Filter Tidal TaylorF2 NRTidalv2

lemma quad_smooth {l : ℝ} (hl : l ≠ 1) : ContDiffAt ℝ ∞ (fun l => (get_quadparam_octparam l).1) l := by
  rcases lt_or_gt_of_ne hl with h | h
  · have : ContDiffAt ℝ ∞ (fun l => (_get_quadparam_octparam_low l).1) l := by
      simp only [_get_quadparam_octparam_low]
      fun_prop
    refine this.congr_of_eventuallyEq ?_
    filter_upwards [gt_mem_nhds h] with x hx
    unfold get_quadparam_octparam
    rw [if_pos hx]
  · have : ContDiffAt ℝ ∞ (fun l => (_get_quadparam_octparam_high l).1) l := by
      have := Real.contDiffAt_log (n := ∞) |>.2 (zero_lt_one.trans h).ne'
      simp only [_get_quadparam_octparam_high, universal_relation]
      fun_prop
    refine this.congr_of_eventuallyEq ?_
    filter_upwards [lt_mem_nhds h] with x hx
    unfold get_quadparam_octparam
    rw [if_neg (by linarith)]

lemma oct_smooth {l : ℝ} (h0 : 0 ≤ l) (hl : l ≠ 1) : ContDiffAt ℝ ∞ (fun l => (get_quadparam_octparam l).2) l := by
  have hq := quad_smooth hl
  have h1 := (C47_quadparam l h0).2.1
  have hlog : ContDiffAt ℝ ∞ (fun l => Real.log (get_quadparam_octparam l).1) l := hq.log (by linarith)
  obtain ⟨L, eL⟩ : ∃ L : ℝ → ℝ, ∀ l, Real.log (get_quadparam_octparam l).1 = L l := ⟨_, fun _ => rfl⟩
  simp only [eL] at hlog
  have e : ∀ l, (get_quadparam_octparam l).2 =
      Real.exp (0.003131 + 2.071 * L l - 0.7152 * L l ^ 2 + 0.2458 * L l ^ 3 - 0.03309 * L l ^ 4) := by
    intro l
    rw [← eL]
    unfold get_quadparam_octparam
    split_ifs with h
    · simp [_get_quadparam_octparam_low, universal_relation]
      ring
    · simp [_get_quadparam_octparam_high, universal_relation]
      ring
  simp only [e]
  fun_prop

lemma cbrt_smooth {E : Type} [NormedAddCommGroup E] [NormedSpace ℝ E] {f : E → ℝ} {e0 : E} (hf : ContDiffAt ℝ ∞ f e0)
    (h0 : 0 < f e0) : ContDiffAt ℝ ∞ (fun e => Jnp.cbrt (f e)) e0 := by
  refine (ContDiffAt.rpow_const_of_ne (p := (1 : ℝ) / 3) hf h0.ne').congr_of_eventuallyEq ?_
  filter_upwards [hf.continuousAt.eventually (lt_mem_nhds h0)] with e he
  rw [Jnp.cbrt, if_pos (le_of_lt he)]

/-- a smooth family of binaries with tides, no deformability at the border 1 of the quadrupole fit -/
structure TFam {E : Type} [NormedAddCommGroup E] [NormedSpace ℝ E] (θ : E → ThetaT) (e0 : E) : Prop where
  bh : XAS.SmoothFam (fun e => bbh (θ e)) e0
  l1 : ContDiffAt ℝ ∞ (fun e => (θ e).lambda1) e0
  l2 : ContDiffAt ℝ ∞ (fun e => (θ e).lambda2) e0
  l1_ne : (θ e0).lambda1 ≠ 1
  l2_ne : (θ e0).lambda2 ≠ 1

namespace TFam
variable {E : Type} [NormedAddCommGroup E] [NormedSpace ℝ E] {θ : E → ThetaT} {e0 : E}

lemma m1 (h : TFam θ e0) : ContDiffAt ℝ ∞ (fun e => (θ e).m1) e0 := h.bh.m1
lemma m2 (h : TFam θ e0) : ContDiffAt ℝ ∞ (fun e => (θ e).m2) e0 := h.bh.m2
lemma chi1 (h : TFam θ e0) : ContDiffAt ℝ ∞ (fun e => (θ e).chi1) e0 := h.bh.chi1
lemma chi2 (h : TFam θ e0) : ContDiffAt ℝ ∞ (fun e => (θ e).chi2) e0 := h.bh.chi2
lemma p1 (h : TFam θ e0) : 0 < (θ e0).m1 := h.bh.phys.m1_pos
lemma p2 (h : TFam θ e0) : 0 < (θ e0).m2 := h.bh.phys.m2_pos

lemma quad1 (h : TFam θ e0) : ContDiffAt ℝ ∞ (fun e => (get_quadparam_octparam (θ e).lambda1).1) e0 :=
  ContDiffAt.comp (g := fun l => (get_quadparam_octparam l).1) e0 (quad_smooth h.l1_ne) h.l1
lemma quad2 (h : TFam θ e0) : ContDiffAt ℝ ∞ (fun e => (get_quadparam_octparam (θ e).lambda2).1) e0 :=
  ContDiffAt.comp (g := fun l => (get_quadparam_octparam l).1) e0 (quad_smooth h.l2_ne) h.l2
lemma oct1 (h : TFam θ e0) (h0 : 0 ≤ (θ e0).lambda1) :
    ContDiffAt ℝ ∞ (fun e => (get_quadparam_octparam (θ e).lambda1).2) e0 :=
  ContDiffAt.comp (g := fun l => (get_quadparam_octparam l).2) e0 (oct_smooth h0 h.l1_ne) h.l1
lemma oct2 (h : TFam θ e0) (h0 : 0 ≤ (θ e0).lambda2) :
    ContDiffAt ℝ ∞ (fun e => (get_quadparam_octparam (θ e).lambda2).2) e0 :=
  ContDiffAt.comp (g := fun l => (get_quadparam_octparam l).2) e0 (oct_smooth h0 h.l2_ne) h.l2

lemma eta (h : TFam θ e0) : ContDiffAt ℝ ∞ (fun e => (θ e).m1 * gt * ((θ e).m2 * gt) / ((θ e).m1 * gt + (θ e).m2 * gt) ^ 2) e0 ∧
    0 < (θ e0).m1 * gt * ((θ e0).m2 * gt) / ((θ e0).m1 * gt + (θ e0).m2 * gt) ^ 2 := by
  have := h.m1
  have := h.m2
  have := mul_pos h.p1 gt_pos
  have := mul_pos h.p2 gt_pos
  exact ⟨ContDiffAt.div (by fun_prop) (by fun_prop) (by positivity), by positivity⟩

/-- all coefficients of the TaylorF2 phase are smooth, and so is the series -/
lemma phasing (h : TFam θ e0) {f : E → ℝ} (hf : ContDiffAt ℝ ∞ f e0) (f0 : 0 < f e0) :
    ContDiffAt ℝ ∞ (fun e => phasing_at (get_PNPhasing_F2 (θ e).m1 (θ e).m2 (θ e).chi1 (θ e).chi2 (θ e).lambda1 (θ e).lambda2)
      (PI * (((θ e).m1 + (θ e).m2) * gt)) (f e)) e0 := by
  have hm1 := h.m1
  have hm2 := h.m2
  have hc1 := h.chi1
  have hc2 := h.chi2
  have hl1 := h.l1
  have hl2 := h.l2
  have hq1 := h.quad1
  have hq2 := h.quad2
  have he := h.eta.1
  have hM : (θ e0).m1 + (θ e0).m2 ≠ 0 := (add_pos h.p1 h.p2).ne'
  have hx1 : ContDiffAt ℝ ∞ (fun e => (θ e).m1 / ((θ e).m1 + (θ e).m2)) e0 := hm1.div (hm1.add hm2) hM
  have hx2 : ContDiffAt ℝ ∞ (fun e => (θ e).m2 / ((θ e).m1 + (θ e).m2)) e0 := hm2.div (hm1.add hm2) hM
  have hN : ContDiffAt ℝ ∞ (fun e => 3 / (128 * ((θ e).m1 * gt * ((θ e).m2 * gt) / ((θ e).m1 * gt + (θ e).m2 * gt) ^ 2))) e0 :=
    contDiffAt_const.div (contDiffAt_const.mul he) (mul_pos (by norm_num) h.eta.2).ne'
  have hp : 0 < PI * (((θ e0).m1 + (θ e0).m2) * gt) * f e0 :=
    mul_pos (mul_pos PI_pos (mul_pos (add_pos h.p1 h.p2) gt_pos)) f0
  have hv : ContDiffAt ℝ ∞ (fun e => Jnp.cbrt (PI * (((θ e).m1 + (θ e).m2) * gt) * f e)) e0 :=
    cbrt_smooth (by fun_prop) hp
  have v0 : 0 < Jnp.cbrt (PI * (((θ e0).m1 + (θ e0).m2) * gt) * f e0) := by
    rw [Jnp.cbrt, if_pos hp.le]
    exact Real.rpow_pos_of_pos hp _
  have hlv := hv.log v0.ne'
  have hi : ContDiffAt ℝ ∞ (fun e => (Jnp.cbrt (PI * (((θ e).m1 + (θ e).m2) * gt) * f e))⁻¹) e0 := hv.inv v0.ne'
  unfold phasing_at get_PNPhasing_F2
  simp only [get_3PNSOCoeff, get_5PNSOCoeff, get_6PNSOCoeff, get_7PNSOCoeff, get_4PNS1S2Coeff, get_4PNS1S2OCoeff,
    get_4PNQM2SOCoeff, get_4PNSelf2SOCoeff, get_4PNQM2SCoeff, get_4PNSelf2SCoeff, get_6PNS1S2OCoeff, get_6PNSelf2SCoeff,
    get_6PNQM2SCoeff, get_10PNTidalCoeff, get_12PNTidalCoeff, get_13PNTidalCoeff, get_14PNTidalCoeff]
  obtain ⟨N, eN⟩ : ∃ N : E → ℝ, ∀ e, 3 / (128 * ((θ e).m1 * gt * ((θ e).m2 * gt) / ((θ e).m1 * gt + (θ e).m2 * gt) ^ 2)) = N e :=
    ⟨_, fun _ => rfl⟩
  obtain ⟨n, en⟩ : ∃ n : E → ℝ, ∀ e, (θ e).m1 * gt * ((θ e).m2 * gt) / ((θ e).m1 * gt + (θ e).m2 * gt) ^ 2 = n e :=
    ⟨_, fun _ => rfl⟩
  obtain ⟨x, ex⟩ : ∃ x : E → ℝ, ∀ e, (θ e).m1 / ((θ e).m1 + (θ e).m2) = x e := ⟨_, fun _ => rfl⟩
  obtain ⟨y, ey⟩ : ∃ y : E → ℝ, ∀ e, (θ e).m2 / ((θ e).m1 + (θ e).m2) = y e := ⟨_, fun _ => rfl⟩
  obtain ⟨v, ev⟩ : ∃ v : E → ℝ, ∀ e, Jnp.cbrt (PI * (((θ e).m1 + (θ e).m2) * gt) * f e) = v e := ⟨_, fun _ => rfl⟩
  obtain ⟨L, eL⟩ : ∃ L : E → ℝ, ∀ e, Real.log (v e) = L e := ⟨_, fun _ => rfl⟩
  obtain ⟨q, eq⟩ : ∃ q : E → ℝ, ∀ e, (get_quadparam_octparam (θ e).lambda1).1 = q e := ⟨_, fun _ => rfl⟩
  obtain ⟨r, er⟩ : ∃ r : E → ℝ, ∀ e, (get_quadparam_octparam (θ e).lambda2).1 = r e := ⟨_, fun _ => rfl⟩
  obtain ⟨a, ea⟩ : ∃ a : E → ℝ, ∀ e, (θ e).lambda1 = a e := ⟨_, fun _ => rfl⟩
  obtain ⟨b, eb⟩ : ∃ b : E → ℝ, ∀ e, (θ e).lambda2 = b e := ⟨_, fun _ => rfl⟩
  obtain ⟨c, ec⟩ : ∃ c : E → ℝ, ∀ e, (θ e).chi1 = c e := ⟨_, fun _ => rfl⟩
  obtain ⟨d, ed⟩ : ∃ d : E → ℝ, ∀ e, (θ e).chi2 = d e := ⟨_, fun _ => rfl⟩
  simp only [ev, eL] at hlv hv hi v0 ⊢
  simp only [eN] at hN ⊢
  simp only [en] at he ⊢
  simp only [ex, ey] at hx1 hx2 ⊢
  simp only [eq, er] at hq1 hq2 ⊢
  simp only [ea, eb] at hl1 hl2 ⊢
  simp only [ec, ed] at hc1 hc2 ⊢
  clear ev eL eN en ex ey eq er ea eb ec ed hm1 hm2 hp
  have h5 : (v e0 * (v e0 * (v e0 * (v e0 * v e0)))) ≠ 0 := by positivity
  refine ContDiffAt.div ?_ (by fun_prop) h5
  fun_prop

lemma f2amp (h : TFam θ e0) {f D : E → ℝ} (hf : ContDiffAt ℝ ∞ f e0) (f0 : 0 < f e0) (hD : ContDiffAt ℝ ∞ D e0)
    (D0 : D e0 ≠ 0) : ContDiffAt ℝ ∞ (fun e => TaylorF2.f2amp (θ e) (D e) (f e)) e0 := by
  have hm1 := h.m1
  have hm2 := h.m2
  have p1 := h.p1
  have p2 := h.p2
  have hg := gt_pos
  have hM : 0 < ((θ e0).m1 + (θ e0).m2) * gt := mul_pos (add_pos p1 p2) hg
  have he : ContDiffAt ℝ ∞ (fun e => (θ e).m1 * gt * ((θ e).m2 * gt) / (((θ e).m1 + (θ e).m2) * gt) ^ 2) e0 :=
    ContDiffAt.div (by fun_prop) (by fun_prop) (by positivity)
  have he0 : 0 < (θ e0).m1 * gt * ((θ e0).m2 * gt) / (((θ e0).m1 + (θ e0).m2) * gt) ^ 2 := by positivity
  have hp : 0 < PI * (((θ e0).m1 + (θ e0).m2) * gt) * f e0 := mul_pos (mul_pos PI_pos hM) f0
  have hv : ContDiffAt ℝ ∞ (fun e => Jnp.cbrt (PI * (((θ e).m1 + (θ e).m2) * gt) * f e)) e0 :=
    cbrt_smooth (by fun_prop) hp
  have v0 : 0 < Jnp.cbrt (PI * (((θ e0).m1 + (θ e0).m2) * gt) * f e0) := by
    rw [Jnp.cbrt, if_pos hp.le]
    exact Real.rpow_pos_of_pos hp _
  have hd : ContDiffAt ℝ ∞ (fun e => (-4) * (θ e).m1 * (θ e).m2 / (D e * m_per_Mpc)) e0 :=
    ContDiffAt.div (by fun_prop) (by fun_prop) (mul_ne_zero D0 m_per_Mpc_pos.ne')
  unfold TaylorF2.f2amp
  simp only [get_energy_0PNCoeff, get_flux_0PNCoeff]
  obtain ⟨n, en⟩ : ∃ n : E → ℝ, ∀ e, (θ e).m1 * gt * ((θ e).m2 * gt) / (((θ e).m1 + (θ e).m2) * gt) ^ 2 = n e :=
    ⟨_, fun _ => rfl⟩
  obtain ⟨v, ev⟩ : ∃ v : E → ℝ, ∀ e, Jnp.cbrt (PI * (((θ e).m1 + (θ e).m2) * gt) * f e) = v e := ⟨_, fun _ => rfl⟩
  obtain ⟨d, ed⟩ : ∃ d : E → ℝ, ∀ e, (-4) * (θ e).m1 * (θ e).m2 / (D e * m_per_Mpc) = d e := ⟨_, fun _ => rfl⟩
  simp only [en, ev, ed] at he he0 hv v0 hd ⊢
  clear en ev ed
  have hs : ContDiffAt ℝ ∞ (fun e => √(-(2 * (-n e / 2) * v e) / (32 * n e * n e / 5 *
      (v e * (v e * (v e * (v e * (v e * (v e * (v e * (v e * (v e * v e)))))))))))) e0 := by
    refine ContDiffAt.sqrt (ContDiffAt.div (by fun_prop) (by fun_prop) (by positivity)) ?_
    rw [show -(2 * (-n e0 / 2) * v e0) = n e0 * v e0 by ring]
    positivity
  obtain ⟨S, eS⟩ : ∃ S : E → ℝ, ∀ e, √(-(2 * (-n e / 2) * v e) / (32 * n e * n e / 5 *
      (v e * (v e * (v e * (v e * (v e * (v e * (v e * (v e * (v e * v e))))))))))) = S e := ⟨_, fun _ => rfl⟩
  simp only [eS] at hs ⊢
  fun_prop

lemma f2phase (h : TFam θ e0) {f tc phic : E → ℝ} (hf : ContDiffAt ℝ ∞ f e0) (f0 : 0 < f e0) (ht : ContDiffAt ℝ ∞ tc e0)
    (hp : ContDiffAt ℝ ∞ phic e0) {f_ref : ℝ} (hr : 0 ≤ f_ref) :
    ContDiffAt ℝ ∞ (fun e => TaylorF2.f2phase (θ e) (tc e) (phic e) f_ref (f e)) e0 := by
  unfold TaylorF2.f2phase
  refine (h.phasing hf f0).add (ContDiffAt.sub (by fun_prop) ?_)
  rcases hr.lt_or_eq with h0 | h0
  · simp only [if_pos (show f_ref ≠ 0 from h0.ne')]
    exact h.phasing (f := fun _ => f_ref) contDiffAt_const h0
  · simp only [← h0, ne_eq, not_true, if_false]
    exact contDiffAt_const

lemma f2strain (h : TFam θ e0) {f D tc phic : E → ℝ} (hf : ContDiffAt ℝ ∞ f e0) (f0 : 0 < f e0) (hD : ContDiffAt ℝ ∞ D e0)
    (D0 : D e0 ≠ 0) (ht : ContDiffAt ℝ ∞ tc e0) (hp : ContDiffAt ℝ ∞ phic e0) {f_ref : ℝ} (hr : 0 ≤ f_ref) :
    ContDiffAt ℝ ∞ (fun e => TaylorF2.f2strain (θ e) (D e) (tc e) (phic e) f_ref (f e)) e0 := by
  have A := h.f2amp hf f0 hD D0
  have P := (h.f2phase hf f0 ht hp hr).sub (contDiffAt_const (c := PI / 4))
  exact (Complex.ofRealCLM.contDiff.contDiffAt.comp _ A).mul
    (((contDiffAt_const (c := Complex.I)).mul (Complex.ofRealCLM.contDiff.contDiffAt.comp _ P)).neg.cexp)

/-! ### NRTidalv2 -/

lemma kappa (h : TFam θ e0) : ContDiffAt ℝ ∞ (fun e => get_kappa (θ e)) e0 := by
  have hm1 := h.m1
  have hm2 := h.m2
  have hl1 := h.l1
  have hl2 := h.l2
  have p1 := h.p1
  have p2 := h.p2
  have hM : (θ e0).m1 + (θ e0).m2 ≠ 0 := (add_pos p1 p2).ne'
  have hx1 : ContDiffAt ℝ ∞ (fun e => (θ e).m1 / ((θ e).m1 + (θ e).m2)) e0 := hm1.div (hm1.add hm2) hM
  have hx2 : ContDiffAt ℝ ∞ (fun e => (θ e).m2 / ((θ e).m1 + (θ e).m2)) e0 := hm2.div (hm1.add hm2) hM
  have x1 : (θ e0).m1 / ((θ e0).m1 + (θ e0).m2) ≠ 0 := by positivity
  have x2 : (θ e0).m2 / ((θ e0).m1 + (θ e0).m2) ≠ 0 := by positivity
  unfold get_kappa
  simp only
  obtain ⟨x, ex⟩ : ∃ x : E → ℝ, ∀ e, (θ e).m1 / ((θ e).m1 + (θ e).m2) = x e := ⟨_, fun _ => rfl⟩
  obtain ⟨y, ey⟩ : ∃ y : E → ℝ, ∀ e, (θ e).m2 / ((θ e).m1 + (θ e).m2) = y e := ⟨_, fun _ => rfl⟩
  simp only [ex, ey] at hx1 hx2 x1 x2 ⊢
  have a : ContDiffAt ℝ ∞ (fun e => (x e)⁻¹) e0 := hx1.inv x1
  have b : ContDiffAt ℝ ∞ (fun e => (y e)⁻¹) e0 := hx2.inv x2
  simp only [div_eq_mul_inv]
  fun_prop

lemma x (h : TFam θ e0) {f : E → ℝ} (hf : ContDiffAt ℝ ∞ f e0) (f0 : 0 < f e0) :
    ContDiffAt ℝ ∞ (fun e => xAt (θ e) (f e)) e0 ∧ 0 < xAt (θ e0) (f e0) := by
  have hp : 0 < PI * PhenomD.Ms (bbh (θ e0)) * f e0 :=
    mul_pos (mul_pos PI_pos (add_pos (mul_pos h.p1 gt_pos) (mul_pos h.p2 gt_pos))) f0
  have hm1 := h.m1
  have hm2 := h.m2
  have hM : ContDiffAt ℝ ∞ (fun e => PhenomD.Ms (bbh (θ e))) e0 := by
    change ContDiffAt ℝ ∞ (fun e => (θ e).m1 * gt + (θ e).m2 * gt) e0
    fun_prop
  unfold xAt
  exact ⟨ContDiffAt.rpow_const_of_ne (by fun_prop) hp.ne', Real.rpow_pos_of_pos hp _⟩

lemma tidal_amp (h : TFam θ e0) {f D : E → ℝ} (hf : ContDiffAt ℝ ∞ f e0) (f0 : 0 < f e0) (hD : ContDiffAt ℝ ∞ D e0)
    (D0 : D e0 ≠ 0) : ContDiffAt ℝ ∞ (fun e => get_tidal_amplitude (xAt (θ e) (f e)) (θ e) (get_kappa (θ e)) (D e)) e0 := by
  obtain ⟨hx, x0⟩ := h.x hf f0
  have hk := h.kappa
  have hm1 := h.m1
  have hm2 := h.m2
  unfold get_tidal_amplitude get_amp0_lal
  simp only
  obtain ⟨x, ex⟩ : ∃ x : E → ℝ, ∀ e, xAt (θ e) (f e) = x e := ⟨_, fun _ => rfl⟩
  obtain ⟨k, ek⟩ : ∃ k : E → ℝ, ∀ e, get_kappa (θ e) = k e := ⟨_, fun _ => rfl⟩
  simp only [ex, ek] at hx x0 hk ⊢
  have a : ContDiffAt ℝ ∞ (fun e => x e ^ ((289 : ℝ) / 100)) e0 := hx.rpow_const_of_ne x0.ne'
  have b : ContDiffAt ℝ ∞ (fun e => x e ^ ((13 : ℝ) / 4)) e0 := hx.rpow_const_of_ne x0.ne'
  have c : ContDiffAt ℝ ∞ (fun e => (1 + 13477.8073677 * x e ^ 4)⁻¹) e0 := ContDiffAt.inv (by fun_prop) (by positivity)
  have d : ContDiffAt ℝ ∞ (fun e => (D e * m_per_Mpc)⁻¹) e0 :=
    ContDiffAt.inv (by fun_prop) (mul_ne_zero D0 m_per_Mpc_pos.ne')
  obtain ⟨c', ec⟩ : ∃ k : E → ℝ, ∀ e, (1 + 13477.8073677 * x e ^ 4)⁻¹ = k e := ⟨_, fun _ => rfl⟩
  obtain ⟨d', ed⟩ : ∃ k : E → ℝ, ∀ e, (D e * m_per_Mpc)⁻¹ = k e := ⟨_, fun _ => rfl⟩
  obtain ⟨a', ea⟩ : ∃ k : E → ℝ, ∀ e, x e ^ ((289 : ℝ) / 100) = k e := ⟨_, fun _ => rfl⟩
  obtain ⟨b', eb⟩ : ∃ k : E → ℝ, ∀ e, x e ^ ((13 : ℝ) / 4) = k e := ⟨_, fun _ => rfl⟩
  simp only [ea, eb] at a b ⊢
  generalize √(PI / 5) = w1
  generalize √(5 / (64 * PI)) = w2
  simp only [div_eq_mul_inv, ec, ed] at c d ⊢
  fun_prop

lemma tidal_phase (h : TFam θ e0) {f : E → ℝ} (hf : ContDiffAt ℝ ∞ f e0) (f0 : 0 < f e0) :
    ContDiffAt ℝ ∞ (fun e => get_tidal_phase (xAt (θ e) (f e)) (θ e) (get_kappa (θ e))) e0 := by
  obtain ⟨hx, x0⟩ := h.x hf f0
  have hk := h.kappa
  have p1 := mul_pos h.p1 gt_pos
  have p2 := mul_pos h.p2 gt_pos
  have hm1 := h.m1
  have hm2 := h.m2
  have hX : (θ e0).m1 * gt / ((θ e0).m1 * gt + (θ e0).m2 * gt) * ((θ e0).m2 * gt / ((θ e0).m1 * gt + (θ e0).m2 * gt)) ≠ 0 := by
    positivity
  have h1 : ContDiffAt ℝ ∞ (fun e => (θ e).m1 * gt / ((θ e).m1 * gt + (θ e).m2 * gt)) e0 :=
    ContDiffAt.div (by fun_prop) (by fun_prop) (by positivity)
  have h2 : ContDiffAt ℝ ∞ (fun e => (θ e).m2 * gt / ((θ e).m1 * gt + (θ e).m2 * gt)) e0 :=
    ContDiffAt.div (by fun_prop) (by fun_prop) (by positivity)
  unfold get_tidal_phase
  simp only
  obtain ⟨x, ex⟩ : ∃ x : E → ℝ, ∀ e, xAt (θ e) (f e) = x e := ⟨_, fun _ => rfl⟩
  obtain ⟨k, ek⟩ : ∃ k : E → ℝ, ∀ e, get_kappa (θ e) = k e := ⟨_, fun _ => rfl⟩
  obtain ⟨y, ey⟩ : ∃ y : E → ℝ, ∀ e, (θ e).m1 * gt / ((θ e).m1 * gt + (θ e).m2 * gt) = y e := ⟨_, fun _ => rfl⟩
  obtain ⟨z, ez⟩ : ∃ z : E → ℝ, ∀ e, (θ e).m2 * gt / ((θ e).m1 * gt + (θ e).m2 * gt) = z e := ⟨_, fun _ => rfl⟩
  simp only [ex, ek] at hx x0 hk ⊢
  simp only [ey, ez] at h1 h2 hX ⊢
  have a : ContDiffAt ℝ ∞ (fun e => x e ^ ((3 : ℝ) / 2)) e0 := hx.rpow_const_of_ne x0.ne'
  have b : ContDiffAt ℝ ∞ (fun e => x e ^ ((5 : ℝ) / 2)) e0 := hx.rpow_const_of_ne x0.ne'
  have den : 1 + -15.111207827736678 * x e0 + 22.195327350624694 * x e0 ^ ((3 : ℝ) / 2) + 8.064109635305156 * x e0 ^ 2 ≠ 0 := by
    obtain ⟨s, hs, e⟩ : ∃ s : ℝ, 0 ≤ s ∧ x e0 = s ^ 2 := ⟨√(x e0), Real.sqrt_nonneg _, (Real.sq_sqrt x0.le).symm⟩
    have hp := padeD_bound hs
    have e3 : x e0 ^ ((3 : ℝ) / 2) = s ^ 3 := by
      rw [e, ← Real.rpow_natCast s 2, ← Real.rpow_mul hs, ← Real.rpow_natCast s 3]
      norm_num
    rw [e3, e]
    unfold padeD at hp
    have : (s ^ 2) ^ 2 = s ^ 4 := by ring
    rw [this]
    intro hh
    rw [hh] at hp
    norm_num at hp
  obtain ⟨a', ea⟩ : ∃ k : E → ℝ, ∀ e, x e ^ ((3 : ℝ) / 2) = k e := ⟨_, fun _ => rfl⟩
  obtain ⟨b', eb⟩ : ∃ k : E → ℝ, ∀ e, x e ^ ((5 : ℝ) / 2) = k e := ⟨_, fun _ => rfl⟩
  simp only [ea, eb] at a b den ⊢
  have c : ContDiffAt ℝ ∞ (fun e => (1 + -15.111207827736678 * x e + 22.195327350624694 * a' e
      + 8.064109635305156 * x e ^ 2)⁻¹) e0 := ContDiffAt.inv (by fun_prop) den
  have d : ContDiffAt ℝ ∞ (fun e => (y e * z e)⁻¹) e0 := ContDiffAt.inv (by fun_prop) hX
  obtain ⟨c', ec⟩ : ∃ k : E → ℝ, ∀ e, (1 + -15.111207827736678 * x e + 22.195327350624694 * a' e
      + 8.064109635305156 * x e ^ 2)⁻¹ = k e := ⟨_, fun _ => rfl⟩
  obtain ⟨d', ed⟩ : ∃ k : E → ℝ, ∀ e, (y e * z e)⁻¹ = k e := ⟨_, fun _ => rfl⟩
  simp only [div_eq_mul_inv, ec, ed] at c d ⊢
  fun_prop

lemma spin_phase (h : TFam θ e0) (hl1 : 0 ≤ (θ e0).lambda1) (hl2 : 0 ≤ (θ e0).lambda2) {f : E → ℝ}
    (hf : ContDiffAt ℝ ∞ f e0) (f0 : 0 < f e0) :
    ContDiffAt ℝ ∞ (fun e => get_spin_phase_correction (xAt (θ e) (f e)) (θ e)) e0 := by
  obtain ⟨hx, x0⟩ := h.x hf f0
  have q1 := h.quad1
  have q2 := h.quad2
  have o1 := h.oct1 hl1
  have o2 := h.oct2 hl2
  have hc1 := h.chi1
  have hc2 := h.chi2
  have he := h.eta.1
  have p1 := mul_pos h.p1 gt_pos
  have p2 := mul_pos h.p2 gt_pos
  have hm1 := h.m1
  have hm2 := h.m2
  have h1 : ContDiffAt ℝ ∞ (fun e => (θ e).m1 * gt / ((θ e).m1 * gt + (θ e).m2 * gt)) e0 :=
    ContDiffAt.div (by fun_prop) (by fun_prop) (by positivity)
  have h2 : ContDiffAt ℝ ∞ (fun e => (θ e).m2 * gt / ((θ e).m1 * gt + (θ e).m2 * gt)) e0 :=
    ContDiffAt.div (by fun_prop) (by fun_prop) (by positivity)
  have hN : ContDiffAt ℝ ∞ (fun e => 3 / (128 * ((θ e).m1 * gt * ((θ e).m2 * gt) / ((θ e).m1 * gt + (θ e).m2 * gt) ^ 2))) e0 :=
    contDiffAt_const.div (contDiffAt_const.mul he) (mul_pos (by norm_num) h.eta.2).ne'
  have a : ContDiffAt ℝ ∞ (fun e => xAt (θ e) (f e) ^ (-((1 : ℝ) / 2))) e0 := hx.rpow_const_of_ne x0.ne'
  have b : ContDiffAt ℝ ∞ (fun e => xAt (θ e) (f e) ^ ((1 : ℝ) / 2)) e0 := hx.rpow_const_of_ne x0.ne'
  unfold get_spin_phase_correction
  simp only
  obtain ⟨N, eN⟩ : ∃ N : E → ℝ, ∀ e, 3 / (128 * ((θ e).m1 * gt * ((θ e).m2 * gt) / ((θ e).m1 * gt + (θ e).m2 * gt) ^ 2)) = N e :=
    ⟨_, fun _ => rfl⟩
  obtain ⟨x, ex⟩ : ∃ x : E → ℝ, ∀ e, xAt (θ e) (f e) = x e := ⟨_, fun _ => rfl⟩
  obtain ⟨y, ey⟩ : ∃ y : E → ℝ, ∀ e, (θ e).m1 * gt / ((θ e).m1 * gt + (θ e).m2 * gt) = y e := ⟨_, fun _ => rfl⟩
  obtain ⟨z, ez⟩ : ∃ z : E → ℝ, ∀ e, (θ e).m2 * gt / ((θ e).m1 * gt + (θ e).m2 * gt) = z e := ⟨_, fun _ => rfl⟩
  obtain ⟨q, eq⟩ : ∃ q : E → ℝ, ∀ e, (get_quadparam_octparam (θ e).lambda1).1 = q e := ⟨_, fun _ => rfl⟩
  obtain ⟨r, er⟩ : ∃ r : E → ℝ, ∀ e, (get_quadparam_octparam (θ e).lambda2).1 = r e := ⟨_, fun _ => rfl⟩
  obtain ⟨o, eo⟩ : ∃ o : E → ℝ, ∀ e, (get_quadparam_octparam (θ e).lambda1).2 = o e := ⟨_, fun _ => rfl⟩
  obtain ⟨p, ep⟩ : ∃ p : E → ℝ, ∀ e, (get_quadparam_octparam (θ e).lambda2).2 = p e := ⟨_, fun _ => rfl⟩
  obtain ⟨a', ea⟩ : ∃ k : E → ℝ, ∀ e, x e ^ (-((1 : ℝ) / 2)) = k e := ⟨_, fun _ => rfl⟩
  obtain ⟨b', eb⟩ : ∃ k : E → ℝ, ∀ e, x e ^ ((1 : ℝ) / 2) = k e := ⟨_, fun _ => rfl⟩
  simp only [eN] at hN ⊢
  simp only [ex, ea, eb] at hx a b ⊢
  simp only [ey, ez] at h1 h2 ⊢
  simp only [eq, er] at q1 q2 ⊢
  simp only [eo, ep] at o1 o2 ⊢
  fun_prop

lemma merger (h : TFam θ e0) (hl1 : 0 ≤ (θ e0).lambda1) (hl2 : 0 ≤ (θ e0).lambda2) :
    ContDiffAt ℝ ∞ (fun e => _get_merger_frequency (θ e) (get_kappa (θ e))) e0 ∧
      0 < _get_merger_frequency (θ e0) (get_kappa (θ e0)) := by
  have hk := h.kappa
  have p1 := h.p1
  have p2 := h.p2
  have k0 : 0 ≤ get_kappa (θ e0) := by
    unfold get_kappa
    simp only
    positivity
  have hm1 := h.m1
  have hm2 := h.m2
  have hg := gt_pos
  have q : ContDiffAt ℝ ∞ (fun e => (θ e).m1 * gt / ((θ e).m2 * gt)) e0 :=
    ContDiffAt.div (by fun_prop) (by fun_prop) (by positivity)
  have q0 : 0 < (θ e0).m1 * gt / ((θ e0).m2 * gt) := by positivity
  have q' : ContDiffAt ℝ ∞ (fun e => ((θ e).m1 * gt / ((θ e).m2 * gt)) ^ (-((1 : ℝ) / 2))) e0 :=
    q.rpow_const_of_ne q0.ne'
  have q1 := Real.rpow_pos_of_pos q0 (-((1 : ℝ) / 2))
  unfold _get_merger_frequency
  simp only
  obtain ⟨k, ek⟩ : ∃ k : E → ℝ, ∀ e, get_kappa (θ e) = k e := ⟨_, fun _ => rfl⟩
  obtain ⟨w, ew⟩ : ∃ k : E → ℝ, ∀ e, ((θ e).m1 * gt / ((θ e).m2 * gt)) ^ (-((1 : ℝ) / 2)) = k e := ⟨_, fun _ => rfl⟩
  simp only [ek, ew] at hk k0 q' q1 ⊢
  have hpi : 0 < TWO_PI := by unfold TWO_PI; exact mul_pos two_pos PI_pos
  constructor
  · refine ContDiffAt.div_const (ContDiffAt.div (ContDiffAt.mul (by fun_prop)
      (ContDiffAt.div (by fun_prop) (by fun_prop) ?_)) (by fun_prop) ?_) _
    all_goals positivity
  · positivity

end TFam

/-- Away from its end point the Planck taper is the standard smooth step, stretched to the interval from `y` to `1.2 y`. -/
lemma taper_eq_smooth {x y : ℝ} (hy : 0 < y) (hx : x ≠ 1.2 * y) :
    finPart (get_planck_taper x y) = Real.smoothTransition (6 - 5 * (x / y)) := by
  rcases le_or_gt x y with h | h
  · rw [C44_below x y hy h, Real.smoothTransition.one_of_one_le]
    · rfl
    · have : x / y ≤ 1 := (div_le_one hy).2 h
      linarith
  · rcases lt_or_gt_of_ne hx with h' | h'
    · rw [taper_inside h h']
      have b1 : 1 < x / y := (one_lt_div hy).2 h
      have b2 : x / y < 1.2 := (div_lt_iff₀ hy).2 h'
      have a0 : 0 < 6 - 5 * (x / y) := by norm_num at b2; linarith
      have b0 : 0 < 1 - (6 - 5 * (x / y)) := by linarith
      change 1 - 1 / (Real.exp (taperU x y) + 1) = _
      unfold Real.smoothTransition expNegInvGlue
      rw [if_neg (not_le.2 a0), if_neg (not_le.2 b0)]
      have e : taperU x y = (1 - (6 - 5 * (x / y)))⁻¹ - (6 - 5 * (x / y))⁻¹ := by
        have n1 : x - y ≠ 0 := by linarith
        have n2 : x - 1.2 * y ≠ 0 := by linarith
        have e1 : 6 - 5 * (x / y) = -((x - 1.2 * y) / (1.2 * y - y)) := by
          rw [show 1.2 * y - y = y / 5 by ring]; field_simp; ring
        have e2 : 1 - (6 - 5 * (x / y)) = (x - y) / (1.2 * y - y) := by
          rw [show 1.2 * y - y = y / 5 by ring]; field_simp; ring
        rw [e2, e1, inv_neg, inv_div, inv_div]
        unfold taperU
        ring
      rw [e, Real.exp_sub, Real.exp_neg, Real.exp_neg]
      have := Real.exp_pos (1 - (6 - 5 * (x / y)))⁻¹
      have := Real.exp_pos (6 - 5 * (x / y))⁻¹
      generalize Real.exp (1 - (6 - 5 * (x / y)))⁻¹ = u at *
      generalize Real.exp (6 - 5 * (x / y))⁻¹ = v at *
      field_simp
      ring
    · rw [C44_above x y hy h', Real.smoothTransition.zero_of_nonpos]
      · rfl
      · have : 1.2 < x / y := (lt_div_iff₀ hy).2 h'
        norm_num at this
        linarith

namespace TFam
variable {E : Type} [NormedAddCommGroup E] [NormedSpace ℝ E] {θ : E → ThetaT} {e0 : E}

lemma taper (h : TFam θ e0) (hl1 : 0 ≤ (θ e0).lambda1) (hl2 : 0 ≤ (θ e0).lambda2) (nt : Bool) {f : E → ℝ}
    (hf : ContDiffAt ℝ ∞ f e0)
    (he : nt = false → f e0 ≠ 1.2 * _get_merger_frequency (θ e0) (get_kappa (θ e0))) :
    ContDiffAt ℝ ∞ (fun e => taperAt (θ e) nt (f e)) e0 := by
  cases nt
  · obtain ⟨hm, m0⟩ := h.merger hl1 hl2
    have he' := he rfl
    obtain ⟨m, em⟩ : ∃ m : E → ℝ, ∀ e, _get_merger_frequency (θ e) (get_kappa (θ e)) = m e := ⟨_, fun _ => rfl⟩
    simp only [em] at hm m0 he'
    have S : ContDiffAt ℝ ∞ (fun e => Real.smoothTransition (6 - 5 * (f e / m e))) e0 :=
      (Real.smoothTransition.contDiff.contDiffAt).comp e0
        (contDiffAt_const.sub (contDiffAt_const.mul (hf.div hm m0.ne')))
    refine S.congr_of_eventuallyEq ?_
    have c1 := hm.continuousAt.eventually (lt_mem_nhds m0)
    have c2 : ∀ᶠ e in 𝓝 e0, f e - 1.2 * m e ≠ 0 :=
      (hf.continuousAt.sub (hm.continuousAt.const_mul 1.2)).eventually_ne (sub_ne_zero.2 he')
    filter_upwards [c1, c2] with e h1 h2
    simp only [taperAt, Bool.false_eq_true, if_false, em]
    exact taper_eq_smooth h1 (sub_ne_zero.1 h2)
  · simp only [taperAt, if_true]
    exact contDiffAt_const

end TFam
end Ripple

/-
  Property theorem C106: the PhenomPv2 polarisations as functions of the frequency. They are continuously differentiable as
  long as the orbital angular momentum does not cancel the aligned spins. Where it does (which happens in band for
  moderately unequal masses and a strongly anti-aligned spin), the opening angle of the precession cone is folded back at a
  right angle and the waveform has a kink.
-/
import Verif.Proofs.Pv2Smooth
import Verif.Proofs.DPos
import Mathlib.Analysis.Calculus.LocalExtr.Basic

namespace Ripple
open PhenomD Pv2 V3 QNMData Set Filter
open scoped Topology ContDiff

/-- Opening angle of the precession cone: the angle between the orbital angular momentum (the z axis) and the vector whose
    z component is orbital angular momentum plus aligned spins, and whose in-plane component is that of the effective
    precession spin on the heavier body. -/
noncomputable def openingAngle (m1 m2 : ℝ) (s1 s2 : V3) (chip f : ℝ) : ℝ :=
  let J : V3 := (chip * (m1 / (m1 + m2)) ^ 2, 0, LplusS m1 m2 s1 s2 f)
  Real.arccos (V3.dot (0, 0, 1) J / len J)

section
variable {m1 m2 : ℝ} (s1 s2 : V3)

lemma arccos_cone {s x : ℝ} (hx : 0 < x) :
    Real.arccos (x / Real.sqrt (s ^ 2 + x ^ 2)) = Real.arctan |s / x| := by
  have h0 : 0 ≤ Real.arctan |s / x| := Real.arctan_nonneg.2 (abs_nonneg _)
  have h1 := (Real.arctan_lt_pi_div_two |s / x|).le
  have hpi := Real.pi_pos
  rw [← Real.arccos_cos h0 (by linarith), Real.cos_arctan, sq_abs]
  congr 1
  have : Real.sqrt (s ^ 2 + x ^ 2) = x * Real.sqrt (1 + (s / x) ^ 2) := by
    rw [show s ^ 2 + x ^ 2 = x ^ 2 * (1 + (s / x) ^ 2) by field_simp; ring, Real.sqrt_mul (by positivity), Real.sqrt_sq hx.le]
  rw [this]
  have : 0 < Real.sqrt (1 + (s / x) ^ 2) := Real.sqrt_pos.2 (by positivity)
  field_simp

/-- C106. The cone used by the waveform (see C81) is the precession cone while the orbital angular momentum exceeds the
    anti-aligned spins, and the supplement of it once they dominate: it never opens beyond a right angle. -/
theorem C106_fold (chip f : ℝ) :
    (0 < LplusS m1 m2 s1 s2 f → coneAngle m1 m2 s1 s2 chip f = openingAngle m1 m2 s1 s2 chip f) ∧
    (LplusS m1 m2 s1 s2 f < 0 → coneAngle m1 m2 s1 s2 chip f = Real.pi - openingAngle m1 m2 s1 s2 chip f ∧
      Real.pi / 2 < openingAngle m1 m2 s1 s2 chip f) := by
  have e : openingAngle m1 m2 s1 s2 chip f =
      Real.arccos (LplusS m1 m2 s1 s2 f / Real.sqrt ((chip * (m1 / (m1 + m2)) ^ 2) ^ 2 + LplusS m1 m2 s1 s2 f ^ 2)) := by
    unfold openingAngle len V3.dot
    simp only
    congr 2
    · ring
    · congr 1; ring
  rw [e]
  unfold coneAngle
  generalize LplusS m1 m2 s1 s2 f = x
  generalize chip * (m1 / (m1 + m2)) ^ 2 = s
  refine ⟨fun hx => (arccos_cone hx).symm, fun hx => ⟨?_, ?_⟩⟩
  · rw [← Real.arccos_neg, ← neg_div, show x ^ 2 = (-x) ^ 2 by ring, arccos_cone (by linarith), div_neg, abs_neg]
  · rw [← not_le, Real.arccos_le_pi_div_two, not_le]
    refine div_neg_of_neg_of_pos hx (Real.sqrt_pos.2 ?_)
    have := sq_pos_of_neg hx
    positivity

/-- C106. Below the cutoff both polarisations are values of functions of the frequency alone, which are continuously
    differentiable wherever the orbital angular momentum does not cancel the aligned spins. -/
theorem C106_smooth (Q : QNM) (hq : Q.Shipped) (h2 : 0 < m2) (h : m2 ≤ m1) (hs1 : len s1 ≤ 1) (hs2 : len s2 ≤ 1)
    (D tc phiRef incl f_ref : ℝ) (hD : 0 < D) :
    ∃ P X : ℝ → ℂ,
      (∀ grid : List ℝ, (∀ f ∈ grid, f < 0.2 / ((m1 + m2) * gt)) →
        gen_IMRPhenomPv2 Q grid (pars m1 m2 s1 s2 D tc phiRef incl) f_ref = .ok (grid.map P, grid.map X)) ∧
      ∀ f, 0 < f → f < 0.2 / ((m1 + m2) * gt) → LplusS m1 m2 s1 s2 f ≠ 0 → ContDiffAt ℝ 1 P f ∧ ContDiffAt ℝ 1 X f := by
  set c := conv m2 m1 f_ref phiRef incl s2 s1 with hc
  set F := 0.2 / ((m1 + m2) * gt) with hF
  refine ⟨fun f => (rotP c.zeta_polariz (twP Q m1 m2 s1 s2 D tc f_ref c F f)).1,
    fun f => (rotP c.zeta_polariz (twP Q m1 m2 s1 s2 D tc f_ref c F f)).2, fun grid hg => ?_, fun f hf hfc hL => ?_⟩
  · rw [genP_eq, ← hc]
    have ecut : fM_CUT / Ms (thetaP m1 m2 s1 s2) = F := by rw [← Ms_eq]; rfl
    have key : ∀ f ∈ grid, twP Q m1 m2 s1 s2 D tc f_ref c (cutThr grid (fM_CUT / Ms (thetaP m1 m2 s1 s2))) f =
        twP Q m1 m2 s1 s2 D tc f_ref c F f := by
      intro f hf
      have hne : grid ≠ [] := List.ne_nil_of_mem hf
      have ht : cutThr grid (fM_CUT / Ms (thetaP m1 m2 s1 s2)) = F := by
        rw [ecut]
        unfold cutThr
        rw [if_pos (hg _ (Jnp.index_last_mem hne))]
      rw [ht]
    refine congrArg _ (Prod.ext ?_ ?_)
    · exact List.map_congr_left fun f hf => by rw [key f hf]
    · exact List.map_congr_left fun f hf => by rw [key f hf]
  · obtain ⟨t1, t2⟩ := twP_C1 s1 s2 Q hq h2 h hs1 hs2 D tc f_ref hD c hf hfc hL
    exact ⟨(contDiffAt_const.mul t1).add (contDiffAt_const.mul t2), (contDiffAt_const.mul t2).sub (contDiffAt_const.mul t1)⟩

/-- the hypotheses are met: a 30+20 binary with a tilted and an anti-aligned spin (its L+S at 50 Hz is shown positive beside
    C82), at 50 Hz, below its cutoff -/
example : (0 : ℝ) < 20 ∧ (20 : ℝ) ≤ 30 ∧ len (0.4, 0.1, 0.2) ≤ 1 ∧ len (0, 0, -0.3) ≤ 1 ∧ (50 : ℝ) < 0.2 / ((30 + 20) * gt) := by
  have hg : gt < 0.000005 := by unfold gt; norm_num [G, MSUN, C]
  have := gt_pos
  refine ⟨by norm_num, by norm_num, ?_, ?_, ?_⟩
  · unfold len V3.dot; rw [Real.sqrt_le_one]; norm_num
  · unfold len V3.dot; rw [Real.sqrt_le_one]; norm_num
  · rw [lt_div_iff₀ (by linarith)]
    linarith

/-! ### the kink -/

/-- the modulus of a function with a simple zero is not differentiable there -/
lemma abs_kink {g : ℝ → ℝ} {x d : ℝ} (hg : HasDerivAt g d x) (h0 : g x = 0) (hd : d ≠ 0) :
    ¬ DifferentiableAt ℝ (fun y => |g y|) x := by
  intro hdiff
  have hmin : IsLocalMin (fun y => |g y|) x := Filter.Eventually.of_forall fun y => by simp [h0]
  have h := hdiff.hasDerivAt
  rw [hmin.deriv_eq_zero] at h
  have hz : HasDerivAt g 0 x := by
    rw [hasDerivAt_iff_isLittleO] at h ⊢
    simp only [h0, abs_zero, sub_zero, smul_zero] at h ⊢
    exact h.abs_left.congr_left (fun y => by rw [abs_abs]) |>.of_abs_left
  exact hd (hg.unique hz)

/-- half the complement of the cone, smooth through the right angle -/
lemma cone_compl {s x : ℝ} (hs : 0 < s) (hx : x ≠ 0) : Real.arctan |s / x| = Real.pi / 2 - |Real.arctan (x / s)| := by
  have e : |s / x| = |x / s|⁻¹ := by rw [← abs_inv, inv_div]
  have hp : 0 < |x / s| := abs_pos.2 (div_ne_zero hx hs.ne')
  rw [e, Real.arctan_inv_of_pos hp]
  congr 1
  rcases le_total 0 (x / s) with h | h
  · rw [abs_of_nonneg h, abs_of_nonneg (Real.arctan_nonneg.2 h)]
  · rw [abs_of_nonpos h, abs_of_nonpos (by simpa using Real.arctan_strictMono.monotone h), Real.arctan_neg]

lemma differentiableAt_of_sq {y : ℝ → ℝ} {x : ℝ} (hy : ContinuousAt y x) (h0 : y x ≠ 0)
    (hd : DifferentiableAt ℝ (fun t => y t ^ 2) x) : DifferentiableAt ℝ y x := by
  have hs := hd.sqrt (pow_ne_zero 2 h0)
  rcases lt_or_gt_of_ne h0 with h | h
  · refine hs.neg.congr_of_eventuallyEq ?_
    filter_upwards [hy.eventually_lt_const h] with t ht
    rw [Pi.neg_apply, Real.sqrt_sq_eq_abs, abs_of_neg ht, neg_neg]
  · refine hs.congr_of_eventuallyEq ?_
    filter_upwards [hy.eventually_const_lt h] with t ht
    rw [Real.sqrt_sq ht.le]

/-- C106. Where the orbital angular momentum cancels the aligned spins the polarisations have a kink: no functions that
    are differentiable there agree with them at the neighbouring frequencies. -/
theorem C106_kink (Q : QNM) (hq : Q.Shipped) (h2 : 0 < m2) (h : m2 ≤ m1) (hs1 : len s1 ≤ 1) (hs2 : len s2 ≤ 1)
    (D tc phiRef incl f_ref : ℝ) (hD : 0 < D) {f0 : ℝ} (hf : 0 < f0) (hfc : f0 < 0.2 / ((m1 + m2) * gt))
    (hL : LplusS m1 m2 s1 s2 f0 = 0) (hL' : deriv (LplusS m1 m2 s1 s2) f0 ≠ 0)
    (hchip : 0 < (frameP m1 m2 s1 s2 f_ref phiRef incl).chip)
    (hth : Real.cos (frameP m1 m2 s1 s2 f_ref phiRef incl).thetaJN ≠ 0)
    (hA0 : (ampP Q [f0] m1 m2 s1 s2 (frameP m1 m2 s1 s2 f_ref phiRef incl).chip D).getD 0 0 ≠ 0) :
    ¬ ∃ P X : ℝ → ℂ, DifferentiableAt ℝ P f0 ∧ DifferentiableAt ℝ X f0 ∧
      ∀ᶠ f in 𝓝[≠] f0, gen_IMRPhenomPv2 Q [f] (pars m1 m2 s1 s2 D tc phiRef incl) f_ref = .ok ([P f], [X f]) := by
  rintro ⟨P, X, hP, hX, hgen⟩
  set c := frameP m1 m2 s1 s2 f_ref phiRef incl with hcdef
  have h1 : 0 < m1 := lt_of_lt_of_le h2 h
  obtain ⟨-, A, hA, hAe⟩ := C96_smooth s1 s2 Q hq h2 h hs1 hs2 c.chip D hD
  have hA' : DifferentiableAt ℝ A f0 := (hA.contDiffAt (Ioi_mem_nhds hf)).differentiableAt (by norm_num)
  have hA1 : ∀ x, x < 0.2 / ((m1 + m2) * gt) → (ampP Q [x] m1 m2 s1 s2 c.chip D).getD 0 0 = A x := by
    intro x hx
    rw [hAe [x] (by simpa using hx)]
    rfl
  rw [hA1 f0 hfc] at hA0
  obtain ⟨s, hsd⟩ : ∃ s, s = c.chip * (m1 / (m1 + m2)) ^ 2 := ⟨_, rfl⟩
  have hs : 0 < s := by rw [hsd]; have : 0 < m1 / (m1 + m2) := by positivity
                        positivity
  have hLs := LplusS_smooth s1 s2 h2 h hf
  have hLd : HasDerivAt (LplusS m1 m2 s1 s2) (deriv (LplusS m1 m2 s1 s2) f0) f0 :=
    (hLs.differentiableAt (by norm_num)).hasDerivAt
  set g : ℝ → ℝ := fun f => Real.arctan (LplusS m1 m2 s1 s2 f / s) with hg
  have hgd : HasDerivAt g (1 / (1 + (LplusS m1 m2 s1 s2 f0 / s) ^ 2) * (deriv (LplusS m1 m2 s1 s2) f0 / s)) f0 :=
    (hLd.div_const s).arctan
  have hg0 : g f0 = 0 := by simp [hg, hL]
  have hsin := hgd.sin
  have hne : Real.cos (g f0) * (1 / (1 + (LplusS m1 m2 s1 s2 f0 / s) ^ 2) * (deriv (LplusS m1 m2 s1 s2) f0 / s)) ≠ 0 := by
    rw [hg0, hL]
    simp [hL', hs.ne']
  have hk := abs_kink hsin (by rw [hg0, Real.sin_zero]) hne
  have haz : DifferentiableAt ℝ (azimuth m1 m2 s1 s2 c f_ref) f0 :=
    (azimuth_smooth s1 s2 h2 h c f_ref hf).differentiableAt (by norm_num)
  have hsm : DifferentiableAt ℝ (fun f => Real.cos (g f) * Real.sin c.thetaJN * Real.cos (azimuth m1 m2 s1 s2 c f_ref f)) f0 :=
    (hgd.differentiableAt.cos.mul_const _).mul haz.cos
  set x0 : ℝ → ℝ := fun f => |Real.sin (g f)| * Real.cos c.thetaJN
    + Real.cos (g f) * Real.sin c.thetaJN * Real.cos (azimuth m1 m2 s1 s2 c f_ref f) with hx0
  have hx0c : ContinuousAt x0 f0 :=
    (hsin.continuousAt.abs.mul continuousAt_const).add hsm.continuousAt
  -- the smooth part of `x0` is differentiable, `x0` itself is not
  have hx0n : ¬ DifferentiableAt ℝ x0 f0 := by
    intro hd
    refine hk ?_
    have := (hd.sub hsm).div_const (Real.cos c.thetaJN)
    refine this.congr_of_eventuallyEq (Filter.Eventually.of_forall fun f => ?_)
    simp only [hx0, Pi.sub_apply, add_sub_cancel_right]
    field_simp
  have hev : ∀ᶠ f in 𝓝[≠] f0, 0 < f ∧ f < 0.2 / ((m1 + m2) * gt) ∧ LplusS m1 m2 s1 s2 f ≠ 0 := by
    have := hLd.eventually_ne (c := 0) hL'
    filter_upwards [this, nhdsWithin_le_nhds (eventually_gt_nhds hf), nhdsWithin_le_nhds (eventually_lt_nhds hfc)]
      with f a b d
    exact ⟨b, d, a⟩
  have hcos : ∀ f, LplusS m1 m2 s1 s2 f ≠ 0 → cosInst m1 m2 s1 s2 c f_ref f = x0 f := by
    intro f hLf
    have hb : coneAngle m1 m2 s1 s2 c.chip f = Real.pi / 2 - |g f| := by
      unfold coneAngle
      rw [← hsd]
      exact cone_compl hs hLf
    have hpi := Real.pi_pos
    have : |g f| ≤ Real.pi := by
      rw [abs_le]
      constructor <;> linarith [Real.arctan_lt_pi_div_two (LplusS m1 m2 s1 s2 f / s),
        Real.neg_pi_div_two_lt_arctan (LplusS m1 m2 s1 s2 f / s)]
    unfold cosInst
    rw [hb, Real.cos_pi_div_two_sub, Real.sin_pi_div_two_sub, Real.cos_abs, ← Real.abs_sin_eq_sin_abs_of_abs_le_pi this]
  have hmod : ∀ᶠ f in 𝓝[≠] f0, ‖P f - Complex.I * X f‖ = |A f| * (1 - x0 f) ^ 2 / 2 ∧
      ‖P f + Complex.I * X f‖ = |A f| * (1 + x0 f) ^ 2 / 2 := by
    filter_upwards [hev, hgen] with f hf' hgf
    obtain ⟨hp, hc, e, -, -, hall⟩ := C81_circular Q [f] s1 s2 D tc phiRef incl f_ref h2 h
    rw [hgf] at e
    obtain ⟨e1, e2⟩ := Prod.mk.inj (Except.ok.inj e)
    obtain ⟨-, n1, n2⟩ := hall 0 (by simp) hf'.1 hf'.2.2
    rw [← e1, ← e2, hA1 f hf'.2.1] at n1 n2
    simp only [List.getD_cons_zero] at n1 n2
    rw [← hcdef, hcos f hf'.2.2] at n1 n2
    exact ⟨n1, n2⟩
  have hU : ContinuousAt (fun f => ‖P f - Complex.I * X f‖) f0 :=
    (hP.continuousAt.sub (continuousAt_const.mul hX.continuousAt)).norm
  have hV : ContinuousAt (fun f => ‖P f + Complex.I * X f‖) f0 :=
    (hP.continuousAt.add (continuousAt_const.mul hX.continuousAt)).norm
  have hAc := hA'.continuousAt.abs
  have hU' : ∀ᶠ f in 𝓝 f0, ‖P f - Complex.I * X f‖ = |A f| * (1 - x0 f) ^ 2 / 2 := (hU.eventuallyEq_nhds_iff_eventuallyEq_nhdsNE
    ((hAc.mul ((continuousAt_const.sub hx0c).pow 2)).div_const 2)).1 (hmod.mono fun f hf => hf.1)
  have hV' : ∀ᶠ f in 𝓝 f0, ‖P f + Complex.I * X f‖ = |A f| * (1 + x0 f) ^ 2 / 2 := (hV.eventuallyEq_nhds_iff_eventuallyEq_nhdsNE
    ((hAc.mul ((continuousAt_const.add hx0c).pow 2)).div_const 2)).1 (hmod.mono fun f hf => hf.2)
  have hAabs : DifferentiableAt ℝ (fun f => |A f|) f0 := hA'.abs hA0
  have hAp : |A f0| ≠ 0 := abs_ne_zero.2 hA0
  have hAev : ∀ᶠ f in 𝓝 f0, |A f| ≠ 0 := hAc.eventually_ne hAp
  by_cases hx : x0 f0 = 1
  · have hne' : (1 : ℝ) + x0 f0 ≠ 0 := by rw [hx]; norm_num
    have hW : DifferentiableAt ℝ (fun f => ‖P f + Complex.I * X f‖) f0 := by
      refine (hP.add (hX.const_mul _)).norm ℂ ?_
      rw [← norm_ne_zero_iff]
      show ‖P f0 + Complex.I * X f0‖ ≠ 0
      rw [hV'.self_of_nhds]
      positivity
    have hsq : DifferentiableAt ℝ (fun f => ((fun t => 1 + x0 t) f) ^ 2) f0 := by
      refine ((hW.const_mul 2).div hAabs hAp).congr_of_eventuallyEq ?_
      filter_upwards [hV', hAev] with f e1 e2
      rw [Pi.div_apply, e1]
      field_simp
    have := differentiableAt_of_sq (continuousAt_const.add hx0c) hne' hsq
    exact hx0n (by simpa using this.sub_const 1)
  · have hne' : (1 : ℝ) - x0 f0 ≠ 0 := fun e => hx (by linarith)
    have hW : DifferentiableAt ℝ (fun f => ‖P f - Complex.I * X f‖) f0 := by
      refine (hP.sub (hX.const_mul _)).norm ℂ ?_
      rw [← norm_ne_zero_iff]
      show ‖P f0 - Complex.I * X f0‖ ≠ 0
      rw [hU'.self_of_nhds]
      positivity
    have hsq : DifferentiableAt ℝ (fun f => ((fun t => 1 - x0 t) f) ^ 2) f0 := by
      refine ((hW.const_mul 2).div hAabs hAp).congr_of_eventuallyEq ?_
      filter_upwards [hU', hAev] with f e1 e2
      rw [Pi.div_apply, e1]
      field_simp
    have := differentiableAt_of_sq (continuousAt_const.sub hx0c) hne' hsq
    exact hx0n (by simpa using this.const_sub 1)

/-! ### a binary with a kink in band -/

lemma inspiral_amp_pos {eps : ℝ} (he : 0 ≤ eps) (he' : eps < 4e-6) (h2 : 0 < m2) (h : m2 ≤ m1) {s1 s2 : V3} (hs1 : len s1 ≤ 1)
    (hs2 : len s2 ≤ 1) (hd : XAS.dOf (thetaP m1 m2 s1 s2) ≤ 0.961) (chip : ℝ) {D : ℝ} (hD : 0 < D) {x : ℝ} (h0 : 0 < x)
    (hx : x < 0.014 / ((m1 + m2) * gt)) :
    0 < (ampP (qnmTable eps) [x] m1 m2 s1 s2 chip D).getD 0 0 := by
  have hp := thetaP_physical h2 h hs1 hs2
  have h1 : 0 < m1 := lt_of_lt_of_le h2 h
  have hg := gt_pos
  have hM : 0 < Ms (thetaP m1 m2 s1 s2) := by unfold Ms thetaP; positivity
  have hmp := m_per_Mpc_pos
  have hC := C_pos
  have hpi := PI_pos
  have hord := C96_regions_ordered s1 s2 _ (C93_shipped he he') h2 h hs1 hs2 chip
  have e3 : (tfP (qnmTable eps) m1 m2 s1 s2 chip).f3 = 0.014 / ((m1 + m2) * gt) := rfl
  have hA : 0 < get_Amp0 (x * Ms (thetaP m1 m2 s1 s2))
      ((thetaP m1 m2 s1 s2).m1 * gt * ((thetaP m1 m2 s1 s2).m2 * gt) / Ms (thetaP m1 m2 s1 s2) ^ 2) := by
    have := hp.m1_pos; have := hp.m2_pos
    unfold get_Amp0
    simp only
    positivity
  have hIns : 0 < get_inspiral_Amp (x * Ms (thetaP m1 m2 s1 s2)) (thetaP m1 m2 s1 s2) (get_coeffs (thetaP m1 m2 s1 s2)) := by
    obtain ⟨S, St, a, t, E, R, R', B, -⟩ := ringdown_box he he' hp h hd
    have hx0 : 0 < x * Ms (thetaP m1 m2 s1 s2) := mul_pos h0 hM
    have hc : ((x * Ms (thetaP m1 m2 s1 s2)) ^ ((1 : ℝ) / 3)) ^ 3 = x * Ms (thetaP m1 m2 s1 s2) := by
      rw [← Real.rpow_natCast, ← Real.rpow_mul hx0.le]; norm_num
    have hc0 : 0 < (x * Ms (thetaP m1 m2 s1 s2)) ^ ((1 : ℝ) / 3) := Real.rpow_pos_of_pos hx0 _
    rw [← hc, ins_eq _ hc0.le]
    refine ins_pos B hc0.le ?_
    by_contra hlt
    push Not at hlt
    have t1 := pow_le_pow_left₀ (by norm_num) hlt.le 3
    rw [hc] at t1
    have t2 : x * Ms (thetaP m1 m2 s1 s2) < 0.014 := by
      rw [← Ms_eq]
      exact (lt_div_iff₀ (by positivity)).1 hx
    norm_num at t1 t2
    linarith
  have h34 : (tfP (qnmTable eps) m1 m2 s1 s2 chip).f3 < (tfP (qnmTable eps) m1 m2 s1 s2 chip).f4 := hord.2.2.2.2.1
  have h3 : x < (tfP (qnmTable eps) m1 m2 s1 s2 chip).f3 := by rw [e3]; exact hx
  simp only [ampP, Amp_eq, List.map_cons, List.map_nil, List.getD_cons_zero]
  unfold ampAt
  rw [Jnp.heaviside_pos (x := (tfP (qnmTable eps) m1 m2 s1 s2 chip).f3 - x) (by linarith),
    Jnp.heaviside_neg (x := x - (tfP (qnmTable eps) m1 m2 s1 s2 chip).f3) (by linarith),
    Jnp.heaviside_neg (x := x - (tfP (qnmTable eps) m1 m2 s1 s2 chip).f4) (by linarith)]
  refine div_pos (mul_pos (mul_pos (by positivity) ?_) (by positivity)) (by positivity)
  linarith

lemma witness_v {f : ℝ} (h0 : 0 < f) : 0 < vOf 40 10 f ∧ vOf 40 10 f ^ 3 = Real.pi * (50 * gt) * f := by
  have hg := gt_pos
  have hpi := Real.pi_pos
  have hp : 0 < Real.pi * (50 * gt) * f := by positivity
  unfold vOf
  rw [show (40 : ℝ) + 10 = 50 by norm_num]
  refine ⟨by positivity, ?_⟩
  rw [← Real.rpow_natCast, ← Real.rpow_mul hp.le]
  norm_num

lemma witness_L (f : ℝ) (h0 : 0 < f) : LplusS 40 10 (0.4, 0, -0.9) (0, 0, 0) f =
    0.16 / vOf 40 10 f + 0.16 * (3 / 2 + 0.16 / 6) * vOf 40 10 f
      + 0.16 * (27 / 8 - 19 * 0.16 / 8 - 0.16 ^ 2 / 24) * vOf 40 10 f ^ 3 - 0.576 := by
  have hv := (witness_v h0).1
  unfold LplusS orbitalL
  norm_num
  field_simp
  ring

lemma gt_bounds : 0.0000049 < gt ∧ gt < 0.000005 := by unfold gt; norm_num [G, MSUN, C]

/-- C106. A binary of 40 and 10 solar masses, the heavier with spin (0.4, 0, -0.9), seen face-on, has its kink between 20 and
    55 Hz, and its waveform uses a wrong cone from there up to 100 Hz at least. -/
theorem C106_in_band {eps : ℝ} (he : 0 ≤ eps) (he' : eps < 4e-6) (D tc phiRef : ℝ) (hD : 0 < D) :
    ∃ f0, 20 < f0 ∧ f0 < 55 ∧
      (¬ ∃ P X : ℝ → ℂ, DifferentiableAt ℝ P f0 ∧ DifferentiableAt ℝ X f0 ∧ ∀ᶠ f in 𝓝[≠] f0,
        gen_IMRPhenomPv2 (qnmTable eps) [f] (pars 40 10 (0.4, 0, -0.9) (0, 0, 0) D tc phiRef 0) 20 = .ok ([P f], [X f])) ∧
      ∀ f, f0 < f → f ≤ 100 → ∀ chip, coneAngle 40 10 (0.4, 0, -0.9) (0, 0, 0) chip f =
        Real.pi - openingAngle 40 10 (0.4, 0, -0.9) (0, 0, 0) chip f := by
  obtain ⟨g1, g2⟩ := gt_bounds
  have p1 := Real.pi_gt_d4
  have p2 := Real.pi_lt_d4
  have cube : ∀ {a b : ℝ}, 0 < a → 0 < b → a ^ 3 < b ^ 3 → a < b := fun ha hb h => lt_of_pow_lt_pow_left₀ 3 hb.le h
  have hv3 : ∀ f : ℝ, 0 < f → 0.000769667 * f < vOf 40 10 f ^ 3 ∧ vOf 40 10 f ^ 3 < 0.0007854 * f := by
    intro f h0
    rw [(witness_v h0).2]
    have a1 : 3.1415 * (50 * 0.0000049) < Real.pi * (50 * gt) := by nlinarith
    have a2 : Real.pi * (50 * gt) < 3.1416 * (50 * 0.000005) := by nlinarith
    constructor
    · nlinarith
    · nlinarith
  have hv100 : ∀ f : ℝ, 0 < f → f ≤ 100 → vOf 40 10 f < 0.43 := by
    intro f h0 h1
    refine cube (witness_v h0).1 (by norm_num) ?_
    have := (hv3 f h0).2
    norm_num at this ⊢
    linarith
  have hl : 0 < LplusS 40 10 (0.4, 0, -0.9) (0, 0, 0) 20 := by
    have hv := (witness_v (f := 20) (by norm_num)).1
    have h27 : vOf 40 10 20 < 0.27 := cube hv (by norm_num) (by
      have := (hv3 20 (by norm_num)).2
      norm_num at this ⊢
      linarith)
    rw [witness_L 20 (by norm_num)]
    have : 0.59 < 0.16 / vOf 40 10 20 := by rw [lt_div_iff₀ hv]; norm_num at h27 ⊢; linarith
    have a1 : 0 < 0.16 * (3 / 2 + 0.16 / 6) * vOf 40 10 20 := by positivity
    have a2 : 0 < 0.16 * (27 / 8 - 19 * 0.16 / 8 - 0.16 ^ 2 / 24) * vOf 40 10 20 ^ 3 := mul_pos (by norm_num) (by positivity)
    norm_num at this a1 a2 ⊢
    linarith
  have hr : LplusS 40 10 (0.4, 0, -0.9) (0, 0, 0) 55 < 0 := by
    have hv := (witness_v (f := 55) (by norm_num)).1
    have hh := hv3 55 (by norm_num)
    have l1 : 0.348 < vOf 40 10 55 := cube (by norm_num) hv (by
      have := hh.1
      norm_num at this ⊢
      linarith)
    have l2 : vOf 40 10 55 < 0.352 := cube hv (by norm_num) (by
      have := hh.2
      norm_num at this ⊢
      linarith)
    rw [witness_L 55 (by norm_num)]
    have b1 : 0.16 / vOf 40 10 55 < 0.46 := by rw [div_lt_iff₀ hv]; norm_num at l1 ⊢; linarith
    have b3 := hh.2
    norm_num at b1 b3 l2 ⊢
    linarith
  -- the derivative is negative up to 100 Hz
  have hder : ∀ f : ℝ, 0 < f → f ≤ 100 → deriv (LplusS 40 10 (0.4, 0, -0.9) (0, 0, 0)) f < 0 := by
    intro f h0 h1
    have hv := (witness_v h0).1
    have hvb := hv100 f h0 h1
    have hvd : HasDerivAt (vOf 40 10) (deriv (vOf 40 10) f) f :=
      ((vOf_smooth (by norm_num) (by norm_num) h0).differentiableAt (by norm_num)).hasDerivAt
    have hvp : 0 < deriv (vOf 40 10) f := by
      have hw : HasDerivAt (fun t : ℝ => Real.pi * (50 * gt) * t) (Real.pi * (50 * gt)) f := by
        simpa using (hasDerivAt_id f).const_mul (Real.pi * (50 * gt))
      have hp : 0 < Real.pi * (50 * gt) * f := by have := gt_pos; have := Real.pi_pos; positivity
      have e : vOf 40 10 = fun t : ℝ => (Real.pi * (50 * gt) * t) ^ ((1 : ℝ) / 3) := by
        funext t; unfold vOf; norm_num
      rw [e, (hw.rpow_const (p := (1 : ℝ) / 3) (Or.inl hp.ne')).deriv]
      have := gt_pos; have := Real.pi_pos
      positivity
    have e : LplusS 40 10 (0.4, 0, -0.9) (0, 0, 0) =ᶠ[𝓝 f] fun t => 0.16 / vOf 40 10 t + 0.16 * (3 / 2 + 0.16 / 6) * vOf 40 10 t
        + 0.16 * (27 / 8 - 19 * 0.16 / 8 - 0.16 ^ 2 / 24) * vOf 40 10 t ^ 3 - 0.576 := by
      filter_upwards [eventually_gt_nhds h0] with t ht
      exact witness_L t ht
    have hd := ((((hasDerivAt_const f (0.16 : ℝ)).div hvd hv.ne').add (hvd.const_mul (0.16 * (3 / 2 + 0.16 / 6)))).add
      ((hvd.pow 3).const_mul (0.16 * (27 / 8 - 19 * 0.16 / 8 - 0.16 ^ 2 / 24)))).sub_const (0.576 : ℝ)
    rw [e.deriv_eq, show deriv (fun t => 0.16 / vOf 40 10 t + 0.16 * (3 / 2 + 0.16 / 6) * vOf 40 10 t
        + 0.16 * (27 / 8 - 19 * 0.16 / 8 - 0.16 ^ 2 / 24) * vOf 40 10 t ^ 3 - 0.576) f = _ from HasDerivAt.deriv hd]
    have hv2 : vOf 40 10 f ^ 2 < 0.1849 := by nlinarith
    have key : 0 < vOf 40 10 f ^ 2 := by positivity
    have k1 : 5.4 < 1 / vOf 40 10 f ^ 2 := by rw [lt_div_iff₀ key]; norm_num at hv2 ⊢; linarith
    have : (0 * vOf 40 10 f - 0.16 * deriv (vOf 40 10) f) / vOf 40 10 f ^ 2 + 0.16 * (3 / 2 + 0.16 / 6) * deriv (vOf 40 10) f
        + 0.16 * (27 / 8 - 19 * 0.16 / 8 - 0.16 ^ 2 / 24) * (((3 : ℕ) : ℝ) * vOf 40 10 f ^ (3 - 1) * deriv (vOf 40 10) f)
        = deriv (vOf 40 10) f * (-(0.16 * (1 / vOf 40 10 f ^ 2)) + 0.16 * (3 / 2 + 0.16 / 6)
          + 0.16 * (27 / 8 - 19 * 0.16 / 8 - 0.16 ^ 2 / 24) * 3 * vOf 40 10 f ^ 2) := by
      push_cast
      field_simp
      ring
    rw [this]
    refine mul_neg_of_pos_of_neg hvp ?_
    norm_num at k1 hv2 ⊢
    linarith
  have hcont : ContinuousOn (LplusS 40 10 (0.4, 0, -0.9) (0, 0, 0)) (Icc 20 55) := fun f hf =>
    (LplusS_smooth _ _ (by norm_num) (by norm_num) (lt_of_lt_of_le (by norm_num) hf.1)).continuousAt.continuousWithinAt
  obtain ⟨f0, hf0, hz⟩ := intermediate_value_Ioo' (by norm_num) hcont ⟨hr, hl⟩
  have h0 : 0 < f0 := lt_trans (by norm_num) hf0.1
  have hs1 : len (0.4, 0, -0.9) ≤ 1 := by unfold len V3.dot; rw [Real.sqrt_le_one]; norm_num
  have hs2 : len (0, 0, 0) ≤ 1 := by unfold len V3.dot; rw [Real.sqrt_le_one]; norm_num
  have hchip : (frameP 40 10 (0.4, 0, -0.9) (0, 0, 0) 20 phiRef 0).chip = 0.4 := by
    show (conv 10 40 20 phiRef 0 (0, 0, 0) (0.4, 0, -0.9)).chip = _
    rw [C57_value 20 phiRef 0 (0, 0, 0) (0.4, 0, -0.9) (by norm_num) (by norm_num)]
    simp only
    rw [show (0.4 : ℝ) ^ 2 + 0 ^ 2 = 0.4 ^ 2 by ring, Real.sqrt_sq (by norm_num), show (0 : ℝ) ^ 2 + 0 ^ 2 = 0 by ring,
      Real.sqrt_zero, mul_zero, max_eq_right (by norm_num)]
  refine ⟨f0, hf0.1, hf0.2, ?_, ?_⟩
  · refine C106_kink _ _ _ (C93_shipped he he') (by norm_num) (by norm_num) hs1 hs2 D tc phiRef 0 20 hD h0 ?_ hz
      (hder f0 h0 (by linarith [hf0.2])).ne ?_ ?_ ?_
    · rw [lt_div_iff₀ (by linarith)]
      have := hf0.2
      nlinarith
    · rw [hchip]; norm_num
    · have hJz : (totalJ gt 10 40 20 (0, 0, 0) (0.4, 0, -0.9)).2.2 = 2500 * LplusS 40 10 (0.4, 0, -0.9) (0, 0, 0) 20 := by
        simp only [totalJ, LplusS, orbitalL, vOf]
        norm_num
        ring
      have hJ : totalJ gt 10 40 20 (0, 0, 0) (0.4, 0, -0.9) ≠ 0 := by
        intro e
        rw [e] at hJz
        have : (0 : ℝ) = 2500 * LplusS 40 10 (0.4, 0, -0.9) (0, 0, 0) 20 := hJz
        linarith
      show Real.cos (conv 10 40 20 phiRef 0 (0, 0, 0) (0.4, 0, -0.9)).thetaJN ≠ 0
      rw [C58_angle 20 phiRef 0 (0, 0, 0) (0.4, 0, -0.9) (by norm_num) (by norm_num) (by norm_num) hJ]
      have hlen := len_pos hJ
      have hdot : V3.dot (lineOfSight 0 phiRef) (totalJ gt 10 40 20 (0, 0, 0) (0.4, 0, -0.9)) =
          2500 * LplusS 40 10 (0.4, 0, -0.9) (0, 0, 0) 20 := by
        rw [← hJz]
        simp [V3.dot, lineOfSight, dir]
      rw [hdot]
      positivity
    · refine (inspiral_amp_pos he he' (by norm_num) (by norm_num) hs1 hs2 ?_ _ hD h0 ?_).ne'
      · unfold XAS.dOf XAS.etaOf thetaP
        have : 40 * gt * (10 * gt) / (40 * gt + 10 * gt) ^ 2 = 0.16 := by
          have := gt_pos
          field_simp
          norm_num
        simp only
        rw [Real.sqrt_le_iff, this]
        norm_num
      · rw [lt_div_iff₀ (by linarith)]
        have := hf0.2
        nlinarith
  · intro f hf hf1 chip
    refine ((C106_fold _ _ chip f).2 ?_).1
    have hanti : StrictAntiOn (LplusS 40 10 (0.4, 0, -0.9) (0, 0, 0)) (Icc f0 100) := by
      refine strictAntiOn_of_deriv_neg (convex_Icc _ _) (fun t ht => ?_) fun t ht => ?_
      · exact (LplusS_smooth _ _ (by norm_num) (by norm_num) (lt_of_lt_of_le h0 ht.1)).continuousAt.continuousWithinAt
      · rw [interior_Icc] at ht
        exact hder t (h0.trans ht.1) ht.2.le
    have := hanti ⟨le_rfl, by linarith⟩ ⟨hf.le, hf1⟩ hf
    rw [hz] at this
    exact this

end
end Ripple

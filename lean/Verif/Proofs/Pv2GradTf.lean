/-
  The transition frequencies, the underlying aligned-spin waveform and the time alignment of PhenomPv2 depend smoothly on the
  parameters.
-/
import Verif.Proofs.DGrad
import Verif.Proofs.Pv2Smooth

namespace Ripple
open PhenomD Pv2 V3 Filter XAS
open scoped Topology ContDiff

variable {E : Type} [NormedAddCommGroup E] [NormedSpace ℝ E]

/-- a smooth family of precessing binaries with unequal masses -/
structure PBase (m1 m2 : E → ℝ) (s1 s2 : E → V3) (chip : E → ℝ) (e0 : E) : Prop where
  cm1 : ContDiffAt ℝ ∞ m1 e0
  cm2 : ContDiffAt ℝ ∞ m2 e0
  cs1 : ContDiffAt ℝ ∞ s1 e0
  cs2 : ContDiffAt ℝ ∞ s2 e0
  cchip : ContDiffAt ℝ ∞ chip e0
  pos : 0 < m2 e0
  lt : m2 e0 < m1 e0
  len1 : len (s1 e0) ≤ 1
  len2 : len (s2 e0) ≤ 1

/-- a smooth family of precessing binaries, with unequal masses, whose remnant spin is not a node of the tables, whose aligned
    remnant spin does not vanish, and whose ringdown amplitude is not at the threshold between having and not having a peak -/
structure PFam (Q : QNM) (m1 m2 : E → ℝ) (s1 s2 : E → V3) (chip : E → ℝ) (e0 : E) : Prop
    extends PBase m1 m2 s1 s2 chip e0 where
  tab : Q.Shipped
  node : FinalSpin_inplane (m1 e0) (m2 e0) (s1 e0).2.2 (s2 e0).2.2 (chip e0) ∉ Q.a
  par : FinalSpin0815 (m1 e0 * m2 e0 / ((m1 e0 + m2 e0) * (m1 e0 + m2 e0))) (s1 e0).2.2 (s2 e0).2.2 ≠ 0
  thr : get_coeffs (thetaP (m1 e0) (m2 e0) (s1 e0) (s2 e0)) 5 ≠ 1

namespace PBase
variable {m1 m2 : E → ℝ} {s1 s2 : E → V3} {chip : E → ℝ} {e0 : E}

lemma pos1 (h : PBase m1 m2 s1 s2 chip e0) : 0 < m1 e0 := h.pos.trans h.lt

lemma toSmooth (h : PBase m1 m2 s1 s2 chip e0) : SmoothFam (fun e => thetaP (m1 e) (m2 e) (s1 e) (s2 e)) e0 :=
  ⟨h.cm1, h.cm2, h.cs1.snd.snd, h.cs2.snd.snd, thetaP_physical h.pos h.lt.le h.len1 h.len2, h.lt.ne'⟩

end PBase

namespace PFam
variable {Q : QNM} {m1 m2 : E → ℝ} {s1 s2 : E → V3} {chip : E → ℝ} {e0 : E}

lemma spin_smooth (h : PFam Q m1 m2 s1 s2 chip e0) : ContDiffAt ℝ ∞ (fun e =>
    FinalSpin_inplane (m1 e) (m2 e) (s1 e).2.2 (s2 e).2.2 (chip e)) e0 := by
  have p1 := h.pos1
  have p2 := h.pos
  have k1 := h.cm1
  have k2 := h.cm2
  have kc := h.cchip
  have z1 := h.cs1.snd.snd
  have z2 := h.cs2.snd.snd
  have M0 : m1 e0 + m2 e0 ≠ 0 := by positivity
  have he : ContDiffAt ℝ ∞ (fun e => m1 e * m2 e / ((m1 e + m2 e) * (m1 e + m2 e))) e0 :=
    ContDiffAt.div (by fun_prop) (by fun_prop) (mul_ne_zero M0 M0)
  have hq : ContDiffAt ℝ ∞ (fun e => m1 e / (m1 e + m2 e)) e0 := k1.div (k1.add k2) M0
  have hp := h.par
  have n0 : m1 e0 * m2 e0 / ((m1 e0 + m2 e0) * (m1 e0 + m2 e0)) ≠ 0 := by positivity
  have n4 : 0 < 1 - 4 * (m1 e0 * m2 e0 / ((m1 e0 + m2 e0) * (m1 e0 + m2 e0))) := by
    have : 1 - 4 * (m1 e0 * m2 e0 / ((m1 e0 + m2 e0) * (m1 e0 + m2 e0))) = ((m1 e0 - m2 e0) / (m1 e0 + m2 e0)) ^ 2 := by
      field_simp; ring
    rw [this]
    have := sub_ne_zero.2 h.lt.ne'
    positivity
  unfold FinalSpin_inplane
  dsimp only
  obtain ⟨n, en⟩ : ∃ n : E → ℝ, ∀ e, m1 e * m2 e / ((m1 e + m2 e) * (m1 e + m2 e)) = n e := ⟨_, fun _ => rfl⟩
  obtain ⟨q, eq⟩ : ∃ q : E → ℝ, ∀ e, m1 e / (m1 e + m2 e) = q e := ⟨_, fun _ => rfl⟩
  simp only [en] at he hp n0 n4 ⊢
  simp only [eq] at hq ⊢
  have hs : ContDiffAt ℝ ∞ (fun e => √(1 - 4 * n e)) e0 := ContDiffAt.sqrt (by fun_prop) n4.ne'
  have hi : ContDiffAt ℝ ∞ (fun e => 1 / n e) e0 := contDiffAt_const.div he n0
  obtain ⟨r, er⟩ : ∃ r : E → ℝ, ∀ e, √(1 - 4 * n e) = r e := ⟨_, fun _ => rfl⟩
  obtain ⟨i, ei⟩ : ∃ i : E → ℝ, ∀ e, 1 / n e = i e := ⟨_, fun _ => rfl⟩
  have ha : ContDiffAt ℝ ∞ (fun e => FinalSpin0815 (n e) (s1 e).2.2 (s2 e).2.2) e0 := by
    simp only [er] at hs
    simp only [ei] at hi
    unfold FinalSpin0815 FinalSpin0815_s
    simp only [er, ei]
    fun_prop
  obtain ⟨a, ea⟩ : ∃ a : E → ℝ, ∀ e, FinalSpin0815 (n e) (s1 e).2.2 (s2 e).2.2 = a e := ⟨_, fun _ => rfl⟩
  simp only [ea] at ha hp ⊢
  have hr : ContDiffAt ℝ ∞ (fun e => √(chip e * q e * q e * (chip e * q e * q e) + a e * a e)) e0 :=
    ContDiffAt.sqrt (by fun_prop)
      (add_pos_of_nonneg_of_pos (mul_self_nonneg _) (mul_self_pos.2 hp)).ne'
  rcases lt_or_gt_of_ne hp with h0 | h0
  · refine (contDiffAt_const (c := (-1 : ℝ)).mul hr).congr_of_eventuallyEq ?_
    filter_upwards [ha.continuousAt.eventually_lt_const h0] with e he
    rw [Jnp.copysign1, if_pos he]
  · refine (contDiffAt_const (c := (1 : ℝ)).mul hr).congr_of_eventuallyEq ?_
    filter_upwards [ha.continuousAt.eventually_const_lt h0] with e he
    rw [Jnp.copysign1, if_neg (not_lt.2 he.le)]

lemma scaled (h : PFam Q m1 m2 s1 s2 chip e0) {tab : List ℝ} : ContDiffAt ℝ ∞ (fun e =>
    Jnp.interp Q.eps (FinalSpin_inplane (m1 e) (m2 e) (s1 e).2.2 (s2 e).2.2 (chip e)) Q.a tab /
    (1 - EradRational0815 (m1 e * gt * (m2 e * gt) / (m1 e * gt + m2 e * gt) ^ 2) (s1 e).2.2 (s2 e).2.2) /
      (m1 e * gt + m2 e * gt)) e0 := by
  have S := h.toSmooth
  have hE := S.Erad_smooth
  have e := eta_s_range S.phys.m1_pos S.phys.m2_pos
  have hb := C26_radiated_energy _ _ _ e.1 e.2 S.phys.chi1_le S.phys.chi2_le
  have hi : ContDiffAt ℝ ∞ (fun e =>
      Jnp.interp Q.eps (FinalSpin_inplane (m1 e) (m2 e) (s1 e).2.2 (s2 e).2.2 (chip e)) Q.a tab) e0 :=
    ContDiffAt.comp (f := fun e => FinalSpin_inplane (m1 e) (m2 e) (s1 e).2.2 (s2 e).2.2 (chip e)) e0
      (interp_smooth h.tab.eps_nonneg h.tab.good tab h.node) h.spin_smooth
  refine (hi.div (contDiffAt_const.sub hE) ?_).div S.Ms_smooth S.Ms_pos.ne'
  linarith [hb.2]

lemma fRD (h : PFam Q m1 m2 s1 s2 chip e0) :
    ContDiffAt ℝ ∞ (fun e => (tfP Q (m1 e) (m2 e) (s1 e) (s2 e) (chip e)).f_RD) e0 := h.scaled
lemma fdamp (h : PFam Q m1 m2 s1 s2 chip e0) :
    ContDiffAt ℝ ∞ (fun e => (tfP Q (m1 e) (m2 e) (s1 e) (s2 e) (chip e)).f_damp) e0 := h.scaled

lemma over (h : PFam Q m1 m2 s1 s2 chip e0) (c : ℝ) : ContDiffAt ℝ ∞ (fun e => c / ((m1 e + m2 e) * gt)) e0 := by
  have k1 := h.cm1
  have k2 := h.cm2
  have := h.pos
  have := h.pos1
  have := gt_pos
  exact contDiffAt_const.div (by fun_prop) (by positivity)

lemma regions (h : PFam Q m1 m2 s1 s2 chip e0) :
    let tf := tfP Q (m1 e0) (m2 e0) (s1 e0) (s2 e0) (chip e0)
    0 < tf.f1 ∧ tf.f1 < tf.f2 ∧ tf.f2 < tf.f_RD ∧ 0 < tf.f3 ∧ tf.f3 < tf.f4 ∧ tf.f4 ≤ tf.f_RD ∧
      tf.f_RD < 0.2 / ((m1 e0 + m2 e0) * gt) ∧ 0 < tf.f_damp :=
  C96_regions_ordered _ _ Q h.tab h.pos h.lt.le h.len1 h.len2 _

lemma f4 (h : PFam Q m1 m2 s1 s2 chip e0) :
    ContDiffAt ℝ ∞ (fun e => (tfP Q (m1 e) (m2 e) (s1 e) (s2 e) (chip e)).f4) e0 := by
  obtain ⟨-, -, -, r3, r34, -⟩ := h.regions
  have r4 := r3.trans r34
  have hr := h.fRD
  have hd := h.fdamp
  have h2 := h.toSmooth.coeffs 5
  have h3 := h.toSmooth.coeffs 6
  have g2 : 0 < get_coeffs (thetaP (m1 e0) (m2 e0) (s1 e0) (s2 e0)) 5 :=
    lt_of_lt_of_le (by norm_num) (coeffs_range h.toSmooth.phys).2.1
  have ht := h.thr
  obtain ⟨tf, et⟩ : ∃ tf : E → TransFreqs, ∀ e, tfP Q (m1 e) (m2 e) (s1 e) (s2 e) (chip e) = tf e := ⟨_, fun _ => rfl⟩
  obtain ⟨g, eg⟩ : ∃ g : E → ℝ, ∀ e, get_coeffs (thetaP (m1 e) (m2 e) (s1 e) (s2 e)) 5 = g e := ⟨_, fun _ => rfl⟩
  obtain ⟨k, ek⟩ : ∃ k : E → ℝ, ∀ e, get_coeffs (thetaP (m1 e) (m2 e) (s1 e) (s2 e)) 6 = k e := ⟨_, fun _ => rfl⟩
  have hv : ∀ e, (tf e).f4 = if g e ≥ 1 then |(tf e).f_RD + -(tf e).f_damp * k e / g e|
      else |(tf e).f_RD + (tf e).f_damp * (-1 + √(1 - g e ^ 2)) * k e / g e| := by
    intro e
    rw [← et, ← eg, ← ek]
    rfl
  simp only [et] at r4 hr hd ⊢
  simp only [eg] at h2 g2 ht
  simp only [ek] at h3
  rcases lt_or_gt_of_ne ht with ht | ht
  · have hs : ContDiffAt ℝ ∞ (fun e => √(1 - g e ^ 2)) e0 := ContDiffAt.sqrt (by fun_prop) (by intro h0; nlinarith)
    have inner : ContDiffAt ℝ ∞ (fun e => (tf e).f_RD + (tf e).f_damp * (-1 + √(1 - g e ^ 2)) * k e / g e) e0 :=
      hr.add (((hd.mul (contDiffAt_const.add hs)).mul h3).div h2 g2.ne')
    have hne := r4.ne'
    rw [hv e0, if_neg (not_le.2 ht)] at hne
    refine ((contDiffAt_abs (abs_ne_zero.1 hne)).comp e0 inner).congr_of_eventuallyEq ?_
    filter_upwards [h2.continuousAt.eventually_lt_const ht] with e he
    rw [hv e, if_neg (not_le.2 he)]
    rfl
  · have inner : ContDiffAt ℝ ∞ (fun e => (tf e).f_RD + -(tf e).f_damp * k e / g e) e0 :=
      hr.add ((hd.neg.mul h3).div h2 g2.ne')
    have hne := r4.ne'
    rw [hv e0, if_pos ht.le] at hne
    refine ((contDiffAt_abs (abs_ne_zero.1 hne)).comp e0 inner).congr_of_eventuallyEq ?_
    filter_upwards [h2.continuousAt.eventually_const_lt ht] with e he
    rw [hv e, if_pos he.le]
    rfl

lemma toTf (h : PFam Q m1 m2 s1 s2 chip e0) : TfFam (fun e => thetaP (m1 e) (m2 e) (s1 e) (s2 e))
    (fun e => tfP Q (m1 e) (m2 e) (s1 e) (s2 e) (chip e)) e0 := by
  obtain ⟨r1, r12, -, r3, r34, -, -, rd⟩ := h.regions
  obtain ⟨-, g2, g3, -⟩ := coeffs_range h.toSmooth.phys
  exact ⟨h.toSmooth, h.over 0.018, contDiffAt_const.mul h.fRD, h.over 0.014, h.f4, h.fRD, h.fdamp,
    ⟨r3, r34, rd, lt_of_lt_of_le (by norm_num) g2, lt_of_lt_of_le (by norm_num) g3⟩, ⟨r1, r12⟩⟩

/-- the time alignment -/
lemma t0_smooth (h : PFam Q m1 m2 s1 s2 chip e0) :
    ContDiffAt ℝ ∞ (fun e => t0P Q (m1 e) (m2 e) (s1 e) (s2 e) (chip e)) e0 := by
  have T := h.toTf
  obtain ⟨-, -, r2R, -⟩ := h.regions
  have d := smooth_deriv (G := fun e f => -Phase f (thetaP (m1 e) (m2 e) (s1 e) (s2 e))
    (get_coeffs (thetaP (m1 e) (m2 e) (s1 e) (s2 e))) (tfP Q (m1 e) (m2 e) (s1 e) (s2 e) (chip e)))
    (x := fun e => (tfP Q (m1 e) (m2 e) (s1 e) (s2 e) (chip e)).f_RD)
    ((T.fst _).Phase_ringdown (f := fun p => p.2) contDiffAt_snd r2R).neg h.fRD
  exact d.div_const _

/-- casts of real functions -/
lemma ofReal_fam {n : WithTop ℕ∞} {g : E → ℝ} (hg : ContDiffAt ℝ n g e0) : ContDiffAt ℝ n (fun x => ((g x : ℝ) : ℂ)) e0 :=
  Complex.ofRealCLM.contDiff.contDiffAt.comp e0 hg

/-- the time shift factors -/
lemma corr_smooth (h : PFam Q m1 m2 s1 s2 chip e0) {tc f : E → ℝ} (ht : ContDiffAt ℝ ∞ tc e0) (hf : ContDiffAt ℝ ∞ f e0) :
    ContDiffAt ℝ ∞ (fun e => corrP Q (m1 e) (m2 e) (s1 e) (s2 e) (chip e) (tc e) (f e)) e0 := by
  have t := h.t0_smooth
  have hx : ContDiffAt ℝ ∞ (fun e => 2 * PI * f e * t0P Q (m1 e) (m2 e) (s1 e) (s2 e) (chip e)) e0 :=
    (contDiffAt_const.mul hf).mul t
  have hm : ContDiffAt ℝ ∞ (fun e => (m2 e + m1 e) * gt) e0 := (h.cm2.add h.cm1).mul contDiffAt_const
  exact ((ofReal_fam hx.cos).sub (contDiffAt_const.mul (ofReal_fam hx.sin))).mul
    (((contDiffAt_const.mul (ofReal_fam hf)).mul (ofReal_fam hm)).mul (ofReal_fam ht)).cexp

/-- the underlying aligned-spin waveform, with the azimuth of the total angular momentum entering through a smooth factor -/
lemma hDs_C1 (h : PFam Q m1 m2 s1 s2 chip e0) {pa D f thr : E → ℝ}
    (hpa : ContDiffAt ℝ 1 (fun e => Complex.exp (2 * Complex.I * ((pa e : ℝ) : ℂ))) e0) (hD : ContDiffAt ℝ ∞ D e0)
    (hf : ContDiffAt ℝ ∞ f e0) (f0 : 0 < f e0) (D0 : 0 < D e0) (hthr : ∀ᶠ e in 𝓝 e0, f e < thr e) :
    ContDiffAt ℝ 1 (fun e => hDs Q (m1 e) (m2 e) (s1 e) (s2 e) (chip e) (pa e) (D e) (thr e) (f e)) e0 := by
  have T := h.toTf
  have A := T.ampAt_C1 hf hD f0 D0 hthr
  have P := T.Phase_C1 hf f0
  have key := (ofReal_fam (A.div_const (2 * √(5 / (64 * PI))))).mul
    ((((contDiffAt_const (c := -Complex.I)).mul (ofReal_fam P)).cexp).mul hpa)
  refine key.congr_of_eventuallyEq (Eventually.of_forall fun e => ?_)
  unfold hDs
  dsimp only
  rw [← Complex.exp_add]
  congr 2
  push_cast
  ring

end PFam
end Ripple

/-
  The IMRPhenomD phase and amplitude are continuously differentiable in all parameters and the frequency together.
-/
import Verif.Proofs.DSmooth

namespace Ripple
open scoped ContDiff Topology
open Filter XAS

namespace XAS.SmoothFam
open PhenomD
variable {E : Type} [NormedAddCommGroup E] [NormedSpace ℝ E] {θ : E → Theta} {e0 : E}

lemma pn (h : SmoothFam θ e0) :
    ContDiffAt ℝ ∞ (fun e => (get_inspiral_phase_coeffs (θ e)).phi2) e0 ∧
    ContDiffAt ℝ ∞ (fun e => (get_inspiral_phase_coeffs (θ e)).phi3) e0 ∧
    ContDiffAt ℝ ∞ (fun e => (get_inspiral_phase_coeffs (θ e)).phi4) e0 ∧
    ContDiffAt ℝ ∞ (fun e => (get_inspiral_phase_coeffs (θ e)).phi5) e0 ∧
    ContDiffAt ℝ ∞ (fun e => (get_inspiral_phase_coeffs (θ e)).phi5_log) e0 ∧
    ContDiffAt ℝ ∞ (fun e => (get_inspiral_phase_coeffs (θ e)).phi6) e0 ∧
    ContDiffAt ℝ ∞ (fun e => (get_inspiral_phase_coeffs (θ e)).phi7) e0 := by
  have he : ContDiffAt ℝ ∞ (fun e => (θ e).m1 * gt * ((θ e).m2 * gt) / ((θ e).m1 * gt + (θ e).m2 * gt) ^ 2) e0 := h.eta
  have h1 := h.frac1
  have h2 := h.frac2
  have c1 := h.chi1
  have c2 := h.chi2
  obtain ⟨n, en⟩ : ∃ n : E → ℝ, ∀ e, (θ e).m1 * gt * ((θ e).m2 * gt) / ((θ e).m1 * gt + (θ e).m2 * gt) ^ 2 = n e :=
    ⟨_, fun _ => rfl⟩
  obtain ⟨a, ea⟩ : ∃ a : E → ℝ, ∀ e, (θ e).m1 * gt / ((θ e).m1 * gt + (θ e).m2 * gt) = a e := ⟨_, fun _ => rfl⟩
  obtain ⟨b, eb⟩ : ∃ b : E → ℝ, ∀ e, (θ e).m2 * gt / ((θ e).m1 * gt + (θ e).m2 * gt) = b e := ⟨_, fun _ => rfl⟩
  simp only [en] at he
  simp only [ea] at h1
  simp only [eb] at h2
  refine ⟨?_, ?_, ?_, ?_, ?_, ?_, ?_⟩ <;>
  · simp only [get_inspiral_phase_coeffs, en, ea, eb]
    fun_prop

lemma inspiral_phase (h : SmoothFam θ e0) {x : E → ℝ} (hx : ContDiffAt ℝ ∞ x e0) (x0 : 0 < x e0) :
    ContDiffAt ℝ ∞ (fun e => PhenomD.get_inspiral_phase (x e) (θ e) (get_coeffs (θ e))) e0 := by
  have he : ContDiffAt ℝ ∞ (fun e => (θ e).m1 * gt * ((θ e).m2 * gt) / ((θ e).m1 * gt + (θ e).m2 * gt) ^ 2) e0 := h.eta
  have hn : (θ e0).m1 * gt * ((θ e0).m2 * gt) / ((θ e0).m1 * gt + (θ e0).m2 * gt) ^ 2 ≠ 0 := h.eta_ne'
  obtain ⟨p2, p3, p4, p5, p5l, p6, p7⟩ := h.pn
  have k := h.coeffs
  have px : 0 < PI * x e0 := mul_pos PI_pos x0
  have hpx : ContDiffAt ℝ ∞ (fun e => PI * x e) e0 := contDiffAt_const.mul hx
  have r := fun p : ℝ => hpx.rpow_const_of_ne (p := p) px.ne'
  have s := fun p : ℝ => hx.rpow_const_of_ne (p := p) x0.ne'
  have l := (r ((1 : ℝ) / 3)).log (Real.rpow_pos_of_pos px _).ne'
  have z : ContDiffAt ℝ ∞ (fun e => (PI * x e) ^ (-1 : ℤ)) e0 := by
    simp only [zpow_neg, zpow_one]
    exact hpx.inv px.ne'
  unfold PhenomD.get_inspiral_phase phi_TF2
  dsimp only
  refine ContDiffAt.add (ContDiffAt.sub (ContDiffAt.mul ?_ ?_) contDiffAt_const) (ContDiffAt.div ?_ he hn)
  · exact (((((((((contDiffAt_const.mul (r _)).add (contDiffAt_const.mul (r _))).add (p2.mul z)).add (p3.mul (r _))).add
      (p4.mul (r _))).add (p5l.mul l)).add p5).add ((contDiffAt_const.mul l).mul (r _))).add (p6.mul (r _))).add (p7.mul (r _))
  · exact contDiffAt_const.div (contDiffAt_const.mul he) (mul_ne_zero (by norm_num) hn)
  · exact ((((k 7).mul hx).add ((contDiffAt_const.mul (k 8)).mul (s _))).add ((contDiffAt_const.mul (k 9)).mul (s _))).add
      ((contDiffAt_const.mul (k 10)).mul (hx.pow 2))

lemma IIa_raw (h : SmoothFam θ e0) {x : E → ℝ} (hx : ContDiffAt ℝ ∞ x e0) (x0 : 0 < x e0) :
    ContDiffAt ℝ ∞ (fun e => get_IIa_raw_phase (x e) (θ e) (get_coeffs (θ e))) e0 := by
  have he : ContDiffAt ℝ ∞ (fun e => (θ e).m1 * gt * ((θ e).m2 * gt) / ((θ e).m1 * gt + (θ e).m2 * gt) ^ 2) e0 := h.eta
  have hn : (θ e0).m1 * gt * ((θ e0).m2 * gt) / ((θ e0).m1 * gt + (θ e0).m2 * gt) ^ 2 ≠ 0 := h.eta_ne'
  have k := h.coeffs
  have z : ContDiffAt ℝ ∞ (fun e => x e ^ (-3 : ℤ)) e0 := by
    have : ∀ y : ℝ, y ^ (-3 : ℤ) = (y ^ 3)⁻¹ := fun y => by rw [zpow_neg]; norm_cast
    simp only [this]
    exact (hx.pow 3).inv (pow_ne_zero 3 x0.ne')
  have l := hx.log x0.ne'
  unfold get_IIa_raw_phase
  dsimp only
  exact ((((k 11).mul hx).add ((k 12).mul l)).sub (((k 13).mul z).div_const 3)).div he hn

lemma inspiral_amp (h : SmoothFam θ e0) {x : E → ℝ} (hx : ContDiffAt ℝ ∞ x e0) (x0 : 0 < x e0) :
    ContDiffAt ℝ ∞ (fun e => PhenomD.get_inspiral_Amp (x e) (θ e) (get_coeffs (θ e))) e0 := by
  have he : ContDiffAt ℝ ∞ (fun e => etaOf (θ e)) e0 := h.eta
  have hd := h.dd
  have c1 := h.chi1
  have c2 := h.chi2
  have k := h.coeffs
  have s := fun p : ℝ => hx.rpow_const_of_ne (p := p) x0.ne'
  have en : ∀ e, (θ e).m1 * gt * ((θ e).m2 * gt) / ((θ e).m1 * gt + (θ e).m2 * gt) ^ 2 = etaOf (θ e) := fun _ => rfl
  have ed : ∀ e, Real.sqrt (1 - 4 * etaOf (θ e)) = dOf (θ e) := fun _ => rfl
  have a2 : ContDiffAt ℝ ∞ (fun e => (get_inspiral_Amp_coeffs (θ e)).A2) e0 := by
    simp only [get_inspiral_Amp_coeffs, en, ed]; fun_prop
  have a3 : ContDiffAt ℝ ∞ (fun e => (get_inspiral_Amp_coeffs (θ e)).A3) e0 := by
    simp only [get_inspiral_Amp_coeffs, en, ed]; fun_prop
  have a4 : ContDiffAt ℝ ∞ (fun e => (get_inspiral_Amp_coeffs (θ e)).A4) e0 := by
    simp only [get_inspiral_Amp_coeffs, en, ed]; fun_prop
  have a5 : ContDiffAt ℝ ∞ (fun e => (get_inspiral_Amp_coeffs (θ e)).A5) e0 := by
    simp only [get_inspiral_Amp_coeffs, en, ed]; fun_prop
  have a6 : ContDiffAt ℝ ∞ (fun e => (get_inspiral_Amp_coeffs (θ e)).A6) e0 := by
    simp only [get_inspiral_Amp_coeffs, en, ed]; fun_prop
  unfold PhenomD.get_inspiral_Amp
  dsimp only
  exact (((((((contDiffAt_const.add (a2.mul (s _))).add (a3.mul hx)).add (a4.mul (s _))).add (a5.mul (s _))).add
    (a6.mul (hx.pow 2))).add ((k 0).mul (s _))).add ((k 1).mul (s _))).add ((k 2).mul (hx.pow 3))

lemma amp0 (h : SmoothFam θ e0) {x : E → ℝ} (hx : ContDiffAt ℝ ∞ x e0) (x0 : 0 < x e0) :
    ContDiffAt ℝ ∞ (fun e => PhenomD.get_Amp0 (x e) ((θ e).m1 * gt * ((θ e).m2 * gt) / Ms (θ e) ^ 2)) e0 := by
  have he : ContDiffAt ℝ ∞ (fun e => (θ e).m1 * gt * ((θ e).m2 * gt) / Ms (θ e) ^ 2) e0 := h.eta
  have hn : 0 < (θ e0).m1 * gt * ((θ e0).m2 * gt) / Ms (θ e0) ^ 2 := (etaOf_range h.phys).1
  unfold PhenomD.get_Amp0
  dsimp only
  exact ((ContDiffAt.rpow_const_of_ne (contDiffAt_const.mul he) (by positivity)).mul
    (hx.rpow_const_of_ne x0.ne')).mul contDiffAt_const

end XAS.SmoothFam

namespace PhenomD
variable {E : Type} [NormedAddCommGroup E] [NormedSpace ℝ E]

/-- a smooth family of binaries with transition frequencies that depend smoothly on the parameters and are in order -/
structure TfFam (θ : E → Theta) (tf : E → TransFreqs) (e0 : E) : Prop extends SmoothFam θ e0 where
  f1 : ContDiffAt ℝ ∞ (fun e => (tf e).f1) e0
  f2 : ContDiffAt ℝ ∞ (fun e => (tf e).f2) e0
  f3 : ContDiffAt ℝ ∞ (fun e => (tf e).f3) e0
  f4 : ContDiffAt ℝ ∞ (fun e => (tf e).f4) e0
  fRD : ContDiffAt ℝ ∞ (fun e => (tf e).f_RD) e0
  fdamp : ContDiffAt ℝ ∞ (fun e => (tf e).f_damp) e0
  regions : 0 < (tf e0).f3 ∧ (tf e0).f3 < (tf e0).f4 ∧ 0 < (tf e0).f_damp ∧ 0 < get_coeffs (θ e0) 5 ∧ 0 < get_coeffs (θ e0) 6
  phase_regions : 0 < (tf e0).f1 ∧ (tf e0).f1 < (tf e0).f2

end PhenomD

namespace PhenomD.TfFam
variable {E : Type} [NormedAddCommGroup E] [NormedSpace ℝ E] {θ : E → Theta} {tf : E → TransFreqs} {e0 : E}

lemma fst (h : TfFam θ tf e0) (x0 : ℝ) : TfFam (fun p : E × ℝ => θ p.1) (fun p : E × ℝ => tf p.1) (e0, x0) :=
  ⟨h.toSmoothFam.fst x0,
    ContDiffAt.comp (g := fun e => (tf e).f1) (e0, x0) h.f1 contDiffAt_fst,
    ContDiffAt.comp (g := fun e => (tf e).f2) (e0, x0) h.f2 contDiffAt_fst,
    ContDiffAt.comp (g := fun e => (tf e).f3) (e0, x0) h.f3 contDiffAt_fst,
    ContDiffAt.comp (g := fun e => (tf e).f4) (e0, x0) h.f4 contDiffAt_fst,
    ContDiffAt.comp (g := fun e => (tf e).f_RD) (e0, x0) h.fRD contDiffAt_fst,
    ContDiffAt.comp (g := fun e => (tf e).f_damp) (e0, x0) h.fdamp contDiffAt_fst, h.regions, h.phase_regions⟩

lemma IIb_raw (h : TfFam θ tf e0) {x : E → ℝ} (hx : ContDiffAt ℝ ∞ x e0) (x0 : 0 < x e0) :
    ContDiffAt ℝ ∞ (fun e => get_IIb_raw_phase (x e) (θ e) (get_coeffs (θ e)) (tf e).f_RD (tf e).f_damp) e0 := by
  have he : ContDiffAt ℝ ∞ (fun e => (θ e).m1 * gt * ((θ e).m2 * gt) / ((θ e).m1 * gt + (θ e).m2 * gt) ^ 2) e0 := h.eta
  have hn : (θ e0).m1 * gt * ((θ e0).m2 * gt) / ((θ e0).m1 * gt + (θ e0).m2 * gt) ^ 2 ≠ 0 := h.toSmoothFam.eta_ne'
  have hM := h.toSmoothFam.Ms_smooth
  have hM0 := h.toSmoothFam.Ms_pos
  have k := h.toSmoothFam.coeffs
  have hr := h.fRD
  have hd := h.fdamp
  obtain ⟨-, -, d0, -⟩ := h.regions
  have z : ContDiffAt ℝ ∞ (fun e => x e ^ (-1 : ℤ)) e0 := by
    simp only [zpow_neg, zpow_one]
    exact hx.inv x0.ne'
  have s := hx.rpow_const_of_ne (p := (3 : ℝ) / 4) x0.ne'
  have at' := ((hx.sub ((k 18).mul (hr.mul hM))).div (hd.mul hM) (mul_pos d0 hM0).ne').arctan
  unfold get_IIb_raw_phase
  dsimp only
  exact (((((k 14).mul hx).sub ((k 15).mul z)).add (((contDiffAt_const.mul (k 16)).mul s).div_const 3)).add
    ((k 17).mul at')).div he hn

lemma IIb_amp (h : TfFam θ tf e0) {x : E → ℝ} (hx : ContDiffAt ℝ ∞ x e0) :
    ContDiffAt ℝ ∞ (fun e => get_IIb_Amp (x e) (θ e) (get_coeffs (θ e)) (tf e).f_RD (tf e).f_damp) e0 := by
  have hM := h.toSmoothFam.Ms_smooth
  have hM0 := h.toSmoothFam.Ms_pos
  have k := h.toSmoothFam.coeffs
  have hr := h.fRD
  have hd := h.fdamp
  obtain ⟨-, -, d0, -, g3⟩ := h.regions
  have w := (hd.mul hM).mul (k 6)
  have w0 := mul_pos (mul_pos d0 hM0) g3
  have u := hx.sub (hr.mul hM)
  refine ContDiffAt.div ((((u.neg.mul (k 5)).div w w0.ne').exp).mul (w.mul (k 4))) ((u.pow 2).add (w.pow 2)) ?_
  exact ne_of_gt (add_pos_of_nonneg_of_pos (sq_nonneg _) (pow_pos w0 2))

/-- the connecting quartic of the amplitude -/
lemma IIa_amp (h : TfFam θ tf e0) {x : E → ℝ} (hx : ContDiffAt ℝ ∞ x e0) :
    ContDiffAt ℝ ∞ (fun e => get_IIa_Amp (x e) (θ e) (get_coeffs (θ e)) (tf e).f3 (tf e).f4
      (tf e).f_RD (tf e).f_damp) e0 := by
  have hM := h.toSmoothFam.Ms_smooth
  have hM0 := h.toSmoothFam.Ms_pos
  have h3 := h.f3
  have h4 := h.f4
  obtain ⟨r3, r34, -⟩ := h.regions
  have a := h3.mul hM
  have b := ((h3.add h4).div_const 2).mul hM
  have c := h4.mul hM
  have a0 := mul_pos r3 hM0
  have c0 := mul_pos (r3.trans r34) hM0
  have v1 := h.toSmoothFam.inspiral_amp a a0
  have v3 := h.IIb_amp c
  have d1 := smooth_deriv (G := fun e y => PhenomD.get_inspiral_Amp y (θ e) (get_coeffs (θ e)))
    ((h.toSmoothFam.fst _).inspiral_amp contDiffAt_snd a0) a
  have d3 := smooth_deriv (G := fun e y => get_IIb_Amp y (θ e) (get_coeffs (θ e)) (tf e).f_RD (tf e).f_damp)
    (x := fun e => (tf e).f4 * Ms (θ e)) ((h.fst _).IIb_amp contDiffAt_snd) c
  have v2 := h.toSmoothFam.coeffs 3
  have n12 : (tf e0).f3 * Ms (θ e0) - ((tf e0).f3 + (tf e0).f4) / 2 * Ms (θ e0) ≠ 0 := by
    rw [← sub_mul]; exact mul_ne_zero (by linarith) hM0.ne'
  have n13 : (tf e0).f3 * Ms (θ e0) - (tf e0).f4 * Ms (θ e0) ≠ 0 := by
    rw [← sub_mul]; exact mul_ne_zero (by linarith) hM0.ne'
  have n23 : ((tf e0).f3 + (tf e0).f4) / 2 * Ms (θ e0) - (tf e0).f4 * Ms (θ e0) ≠ 0 := by
    rw [← sub_mul]; exact mul_ne_zero (by linarith) hM0.ne'
  have form : ∀ {f1 f2 f3 v1 v2 v3 d1 d3 : E → ℝ}, ContDiffAt ℝ ∞ f1 e0 → ContDiffAt ℝ ∞ f2 e0 → ContDiffAt ℝ ∞ f3 e0 →
      ContDiffAt ℝ ∞ v1 e0 → ContDiffAt ℝ ∞ v2 e0 → ContDiffAt ℝ ∞ v3 e0 → ContDiffAt ℝ ∞ d1 e0 → ContDiffAt ℝ ∞ d3 e0 →
      f1 e0 - f2 e0 ≠ 0 → f1 e0 - f3 e0 ≠ 0 → f2 e0 - f3 e0 ≠ 0 →
      ContDiffAt ℝ ∞ (fun e => get_delta0 (f1 e) (f2 e) (f3 e) (v1 e) (v2 e) (v3 e) (d1 e) (d3 e)
        + get_delta1 (f1 e) (f2 e) (f3 e) (v1 e) (v2 e) (v3 e) (d1 e) (d3 e) * x e
        + get_delta2 (f1 e) (f2 e) (f3 e) (v1 e) (v2 e) (v3 e) (d1 e) (d3 e) * x e ^ 2
        + get_delta3 (f1 e) (f2 e) (f3 e) (v1 e) (v2 e) (v3 e) (d1 e) (d3 e) * x e ^ 3
        + get_delta4 (f1 e) (f2 e) (f3 e) (v1 e) (v2 e) (v3 e) (d1 e) (d3 e) * x e ^ 4) e0 := by
    intro f1 f2 f3 v1 v2 v3 d1 d3 k1 k2 k3 k4 k5 k6 k7 k8 m12 m13 m23
    have D : (f1 e0 - f2 e0) ^ 2 * (f1 e0 - f3 e0) ^ 3 * (f2 e0 - f3 e0) ^ 2 ≠ 0 := by positivity
    have e0' : ContDiffAt ℝ ∞ (fun e => get_delta0 (f1 e) (f2 e) (f3 e) (v1 e) (v2 e) (v3 e) (d1 e) (d3 e)) e0 := by
      unfold get_delta0
      exact ContDiffAt.div (by fun_prop) (by fun_prop) D
    have e1 : ContDiffAt ℝ ∞ (fun e => get_delta1 (f1 e) (f2 e) (f3 e) (v1 e) (v2 e) (v3 e) (d1 e) (d3 e)) e0 := by
      unfold get_delta1
      refine ContDiffAt.div (ContDiffAt.sub (by fun_prop) (ContDiffAt.div (by fun_prop) (by fun_prop) ?_)) (by fun_prop) ?_
      · positivity
      · positivity
    have e2 : ContDiffAt ℝ ∞ (fun e => get_delta2 (f1 e) (f2 e) (f3 e) (v1 e) (v2 e) (v3 e) (d1 e) (d3 e)) e0 := by
      unfold get_delta2
      exact ContDiffAt.div (by fun_prop) (by fun_prop) D
    have e3 : ContDiffAt ℝ ∞ (fun e => get_delta3 (f1 e) (f2 e) (f3 e) (v1 e) (v2 e) (v3 e) (d1 e) (d3 e)) e0 := by
      unfold get_delta3
      refine ContDiffAt.div (ContDiffAt.add (ContDiffAt.sub (ContDiffAt.div (by fun_prop) (by fun_prop) m23)
        (ContDiffAt.div (by fun_prop) (by fun_prop) m12)) (ContDiffAt.div (by fun_prop) (by fun_prop) ?_)) (by fun_prop) ?_
      · positivity
      · positivity
    have e4 : ContDiffAt ℝ ∞ (fun e => get_delta4 (f1 e) (f2 e) (f3 e) (v1 e) (v2 e) (v3 e) (d1 e) (d3 e)) e0 := by
      unfold get_delta4
      exact ContDiffAt.div (by fun_prop) (by fun_prop) D
    exact (((e0'.add (e1.mul hx)).add (e2.mul (hx.pow 2))).add (e3.mul (hx.pow 3))).add (e4.mul (hx.pow 4))
  exact form a b c v1 v2 v3 d1 d3 n12 n13 n23

lemma eventually_pos (h : TfFam θ tf e0) : ∀ᶠ e in 𝓝 e0, 0 < Ms (θ e) ∧ 0 < (tf e).f1 ∧ 0 < (tf e).f2 ∧
    0 < (tf e).f3 ∧ (tf e).f3 < (tf e).f4 ∧ 0 < (tf e).f_damp ∧ 0 < get_coeffs (θ e) 6 := by
  obtain ⟨r3, r34, d0, -, g3⟩ := h.regions
  obtain ⟨r1, r12⟩ := h.phase_regions
  filter_upwards [h.toSmoothFam.Ms_smooth.continuousAt.eventually_const_lt h.toSmoothFam.Ms_pos,
    h.f1.continuousAt.eventually_const_lt r1, h.f2.continuousAt.eventually_const_lt (r1.trans r12),
    h.f3.continuousAt.eventually_const_lt r3, h.f3.continuousAt.eventually_lt h.f4.continuousAt r34,
    h.fdamp.continuousAt.eventually_const_lt d0, (h.toSmoothFam.coeffs 6).continuousAt.eventually_const_lt g3]
    with e a b c d f g k
  exact ⟨a, b, c, d, f, g, k⟩

/-- the constants and slopes that join the three parts of the phase -/
lemma corrections (h : TfFam θ tf e0) : ∃ b1 b0 a1 a0 : E → ℝ,
    (∀ e, deriv (fun x => PhenomD.get_inspiral_phase x (θ e) (get_coeffs (θ e)))
      ((tf e).f1 * Ms (θ e)) - deriv (fun x => get_IIa_raw_phase x (θ e) (get_coeffs (θ e)))
      ((tf e).f1 * Ms (θ e)) = b1 e) ∧
    (∀ e, PhenomD.get_inspiral_phase ((tf e).f1 * Ms (θ e)) (θ e) (get_coeffs (θ e))
      - b1 e * ((tf e).f1 * Ms (θ e))
      - get_IIa_raw_phase ((tf e).f1 * Ms (θ e)) (θ e) (get_coeffs (θ e)) = b0 e) ∧
    (∀ e, deriv (fun x => get_IIa_raw_phase x (θ e) (get_coeffs (θ e)) + b1 e * x)
      ((tf e).f2 * Ms (θ e)) - deriv (fun x => get_IIb_raw_phase x (θ e) (get_coeffs (θ e)) (tf e).f_RD
      (tf e).f_damp) ((tf e).f2 * Ms (θ e)) = a1 e) ∧
    (∀ e, get_IIa_raw_phase ((tf e).f2 * Ms (θ e)) (θ e) (get_coeffs (θ e))
      + b1 e * ((tf e).f2 * Ms (θ e)) + b0 e - a1 e * ((tf e).f2 * Ms (θ e))
      - get_IIb_raw_phase ((tf e).f2 * Ms (θ e)) (θ e) (get_coeffs (θ e)) (tf e).f_RD
      (tf e).f_damp = a0 e) ∧
    ContDiffAt ℝ ∞ b1 e0 ∧ ContDiffAt ℝ ∞ b0 e0 ∧ ContDiffAt ℝ ∞ a1 e0 ∧ ContDiffAt ℝ ∞ a0 e0 := by
  have hM := h.toSmoothFam.Ms_smooth
  have hM0 := h.toSmoothFam.Ms_pos
  obtain ⟨r1, r12⟩ := h.phase_regions
  have r2 := r1.trans r12
  have x1 := h.f1.mul hM
  have x2 := h.f2.mul hM
  have p1 := mul_pos r1 hM0
  have p2 := mul_pos r2 hM0
  obtain ⟨b1, eb1⟩ : ∃ b1 : E → ℝ, ∀ e, deriv (fun x => PhenomD.get_inspiral_phase x (θ e) (get_coeffs (θ e)))
      ((tf e).f1 * Ms (θ e)) - deriv (fun x => get_IIa_raw_phase x (θ e) (get_coeffs (θ e)))
      ((tf e).f1 * Ms (θ e)) = b1 e := ⟨_, fun _ => rfl⟩
  have hb1 : ContDiffAt ℝ ∞ b1 e0 := by
    refine ContDiffAt.congr_of_eventuallyEq (ContDiffAt.sub ?_ ?_) (Eventually.of_forall fun e => (eb1 e).symm)
    · exact smooth_deriv (G := fun e x => PhenomD.get_inspiral_phase x (θ e) (get_coeffs (θ e)))
        ((h.toSmoothFam.fst _).inspiral_phase contDiffAt_snd p1) x1
    · exact smooth_deriv (G := fun e x => get_IIa_raw_phase x (θ e) (get_coeffs (θ e)))
        ((h.toSmoothFam.fst _).IIa_raw contDiffAt_snd p1) x1
  obtain ⟨b0, eb0⟩ : ∃ b0 : E → ℝ, ∀ e, PhenomD.get_inspiral_phase ((tf e).f1 * Ms (θ e)) (θ e) (get_coeffs (θ e))
      - b1 e * ((tf e).f1 * Ms (θ e))
      - get_IIa_raw_phase ((tf e).f1 * Ms (θ e)) (θ e) (get_coeffs (θ e)) = b0 e := ⟨_, fun _ => rfl⟩
  have hb0 : ContDiffAt ℝ ∞ b0 e0 :=
    ContDiffAt.congr_of_eventuallyEq (((h.toSmoothFam.inspiral_phase x1 p1).sub (hb1.mul x1)).sub
      (h.toSmoothFam.IIa_raw x1 p1)) (Eventually.of_forall fun e => (eb0 e).symm)
  obtain ⟨a1, ea1⟩ : ∃ a1 : E → ℝ, ∀ e, deriv (fun x => get_IIa_raw_phase x (θ e) (get_coeffs (θ e)) + b1 e * x)
      ((tf e).f2 * Ms (θ e)) - deriv (fun x => get_IIb_raw_phase x (θ e) (get_coeffs (θ e)) (tf e).f_RD
      (tf e).f_damp) ((tf e).f2 * Ms (θ e)) = a1 e := ⟨_, fun _ => rfl⟩
  have hb1' : ∀ x0 : ℝ, ContDiffAt ℝ ∞ (fun p : E × ℝ => b1 p.1) (e0, x0) := fun x0 =>
    ContDiffAt.comp (g := b1) (e0, x0) hb1 contDiffAt_fst
  have hb0' : ∀ x0 : ℝ, ContDiffAt ℝ ∞ (fun p : E × ℝ => b0 p.1) (e0, x0) := fun x0 =>
    ContDiffAt.comp (g := b0) (e0, x0) hb0 contDiffAt_fst
  have ha1 : ContDiffAt ℝ ∞ a1 e0 := by
    refine ContDiffAt.congr_of_eventuallyEq (ContDiffAt.sub ?_ ?_) (Eventually.of_forall fun e => (ea1 e).symm)
    · exact smooth_deriv (G := fun e x => get_IIa_raw_phase x (θ e) (get_coeffs (θ e)) + b1 e * x)
        (((h.toSmoothFam.fst _).IIa_raw contDiffAt_snd p2).add ((hb1' _).mul contDiffAt_snd)) x2
    · exact smooth_deriv (G := fun e x => get_IIb_raw_phase x (θ e) (get_coeffs (θ e)) (tf e).f_RD
        (tf e).f_damp) ((h.fst _).IIb_raw contDiffAt_snd p2) x2
  obtain ⟨a0, ea0⟩ : ∃ a0 : E → ℝ, ∀ e, get_IIa_raw_phase ((tf e).f2 * Ms (θ e)) (θ e) (get_coeffs (θ e))
      + b1 e * ((tf e).f2 * Ms (θ e)) + b0 e - a1 e * ((tf e).f2 * Ms (θ e))
      - get_IIb_raw_phase ((tf e).f2 * Ms (θ e)) (θ e) (get_coeffs (θ e)) (tf e).f_RD
      (tf e).f_damp = a0 e := ⟨_, fun _ => rfl⟩
  have ha0 : ContDiffAt ℝ ∞ a0 e0 :=
    ContDiffAt.congr_of_eventuallyEq (((((h.toSmoothFam.IIa_raw x2 p2).add (hb1.mul x2)).add hb0).sub (ha1.mul x2)).sub
      (h.IIb_raw x2 p2)) (Eventually.of_forall fun e => (ea0 e).symm)
  exact ⟨b1, b0, a1, a0, eb1, eb0, ea1, ea0, hb1, hb0, ha1, ha0⟩

/-- the phase is continuously differentiable along smooth families of binaries and frequencies -/
lemma Phase_C1 (h : TfFam θ tf e0) {f : E → ℝ} (hf : ContDiffAt ℝ ∞ f e0) (f0 : 0 < f e0) :
    ContDiffAt ℝ 1 (fun e => Phase (f e) (θ e) (get_coeffs (θ e)) (tf e)) e0 := by
  have hM := h.toSmoothFam.Ms_smooth
  have hM0 := h.toSmoothFam.Ms_pos
  obtain ⟨r1, r12⟩ := h.phase_regions
  have r2 := r1.trans r12
  have x1 := h.f1.mul hM
  have x2 := h.f2.mul hM
  have p1 := mul_pos r1 hM0
  have p2 := mul_pos r2 hM0
  obtain ⟨b1, b0, a1, a0, eb1, eb0, ea1, ea0, hb1, hb0, ha1, ha0⟩ := h.corrections
  have hb1' : ∀ x0 : ℝ, ContDiffAt ℝ ∞ (fun p : E × ℝ => b1 p.1) (e0, x0) := fun x0 =>
    ContDiffAt.comp (g := b1) (e0, x0) hb1 contDiffAt_fst
  have hb0' : ∀ x0 : ℝ, ContDiffAt ℝ ∞ (fun p : E × ℝ => b0 p.1) (e0, x0) := fun x0 =>
    ContDiffAt.comp (g := b0) (e0, x0) hb0 contDiffAt_fst
  have ha1' : ∀ x0 : ℝ, ContDiffAt ℝ ∞ (fun p : E × ℝ => a1 p.1) (e0, x0) := fun x0 =>
    ContDiffAt.comp (g := a1) (e0, x0) ha1 contDiffAt_fst
  have ha0' : ∀ x0 : ℝ, ContDiffAt ℝ ∞ (fun p : E × ℝ => a0 p.1) (e0, x0) := fun x0 =>
    ContDiffAt.comp (g := a0) (e0, x0) ha0 contDiffAt_fst
  have hMs : ContDiffAt ℝ ∞ (fun p : E × ℝ => p.2 * Ms (θ p.1)) (e0, f e0) :=
    contDiffAt_snd.mul (h.toSmoothFam.fst _).Ms_smooth
  have pM := mul_pos f0 hM0
  -- slopes
  have dA : ∀ (t : Theta) (b x : ℝ), 0 < x → deriv (fun y => get_IIa_raw_phase y t (get_coeffs t) + b * y) x =
      deriv (fun y => get_IIa_raw_phase y t (get_coeffs t)) x + b := by
    intro t b x hx
    have hb : HasDerivAt (fun y : ℝ => b * y) b x := by simpa using (hasDerivAt_id x).const_mul b
    exact ((((cd_IIa_raw_phase t (get_coeffs t) hx).differentiableAt (by norm_num)).hasDerivAt).add hb).deriv
  have cA : ∀ (t : Theta) (b x : ℝ), 0 < x → ContDiffAt ℝ 1 (fun y => get_IIa_raw_phase y t (get_coeffs t) + b * y) x :=
    fun t b x hx => (cd_IIa_raw_phase t (get_coeffs t) hx).add (by fun_prop)
  have main := glue_three
    (I := fun e x => PhenomD.get_inspiral_phase (x * Ms (θ e)) (θ e) (get_coeffs (θ e)))
    (N := fun e x => get_IIa_raw_phase (x * Ms (θ e)) (θ e) (get_coeffs (θ e)) + b1 e * (x * Ms (θ e)) + b0 e)
    (R := fun e x => get_IIb_raw_phase (x * Ms (θ e)) (θ e) (get_coeffs (θ e)) (tf e).f_RD (tf e).f_damp
      + a0 e + a1 e * (x * Ms (θ e)))
    (x := f) (f1 := fun e => (tf e).f1) (f2 := fun e => (tf e).f2) (fc := f e0 + 1) (e0 := e0)
    (hf.of_le (by simp)) (h.f1.of_le (by simp)) (h.f2.of_le (by simp)) r12 (by linarith)
    (fun _ => ((h.toSmoothFam.fst _).inspiral_phase hMs pM).of_le (by simp))
    (fun _ _ => ((((h.toSmoothFam.fst _).IIa_raw hMs pM).add ((hb1' _).mul hMs)).add (hb0' _)).of_le (by simp))
    (fun _ => ((((h.fst _).IIb_raw hMs pM).add (ha0' _)).add ((ha1' _).mul hMs)).of_le (by simp))
    (Eventually.of_forall fun e => by rw [← eb0 e]; ring)
    (h.eventually_pos.mono fun e ⟨c0, c1, _⟩ => by
      rw [(hasDerivAt_comp_mul (cd_inspiral_phase (θ e) _ (mul_pos c1 c0))).deriv,
        ((hasDerivAt_comp_mul (cA (θ e) (b1 e) _ (mul_pos c1 c0))).add_const _).deriv, dA _ _ _ (mul_pos c1 c0), ← eb1 e]
      ring)
    (Eventually.of_forall fun e => by rw [← ea0 e]; ring)
    (h.eventually_pos.mono fun e ⟨c0, _, c2, _⟩ => by
      rw [((hasDerivAt_comp_mul (cA (θ e) (b1 e) _ (mul_pos c2 c0))).add_const _).deriv,
        deriv_affine (cd_IIb_raw_phase (θ e) _ _ _ (mul_pos c2 c0)), ← ea1 e]
      ring)
  refine main.congr_of_eventuallyEq ?_
  filter_upwards [hf.continuousAt.eventually_lt_const (show f e0 < f e0 + 1 by linarith)] with e he
  rw [Jnp.heaviside_pos (x := f e0 + 1 - f e) (by linarith), mul_one, ← ea0 e, ← ea1 e, ← eb0 e, ← eb1 e]
  rfl

/-- above the last transition frequency the phase is smooth -/
lemma Phase_ringdown (h : TfFam θ tf e0) {f : E → ℝ} (hf : ContDiffAt ℝ ∞ f e0) (f0 : (tf e0).f2 < f e0) :
    ContDiffAt ℝ ∞ (fun e => Phase (f e) (θ e) (get_coeffs (θ e)) (tf e)) e0 := by
  have hM := h.toSmoothFam.Ms_smooth
  have hM0 := h.toSmoothFam.Ms_pos
  obtain ⟨r1, r12⟩ := h.phase_regions
  obtain ⟨b1, b0, a1, a0, eb1, eb0, ea1, ea0, hb1, hb0, ha1, ha0⟩ := h.corrections
  have hx := hf.mul hM
  have x0 : 0 < f e0 * Ms (θ e0) := mul_pos ((r1.trans r12).trans f0) hM0
  refine (((h.IIb_raw hx x0).add ha0).add (ha1.mul hx)).congr_of_eventuallyEq ?_
  filter_upwards [h.f2.continuousAt.eventually_lt hf.continuousAt f0, h.f1.continuousAt.eventually_lt h.f2.continuousAt r12]
    with e h2 h1
  have E : Phase (f e) (θ e) (get_coeffs (θ e)) (tf e) =
      PhenomD.get_inspiral_phase (f e * Ms (θ e)) (θ e) (get_coeffs (θ e)) * Jnp.heaviside ((tf e).f1 - f e) 0.5
      + Jnp.heaviside (f e - (tf e).f1) 0.5 * (get_IIa_raw_phase (f e * Ms (θ e)) (θ e) (get_coeffs (θ e))
        + b1 e * (f e * Ms (θ e)) + b0 e) * Jnp.heaviside ((tf e).f2 - f e) 0.5
      + (get_IIb_raw_phase (f e * Ms (θ e)) (θ e) (get_coeffs (θ e)) (tf e).f_RD (tf e).f_damp + a0 e
        + a1 e * (f e * Ms (θ e))) * Jnp.heaviside (f e - (tf e).f2) 0.5 := by
    rw [← ea0 e, ← ea1 e, ← eb0 e, ← eb1 e]
    rfl
  rw [E, Jnp.heaviside_neg (x := (tf e).f1 - f e) (by linarith), Jnp.heaviside_neg (x := (tf e).f2 - f e) (by linarith),
    Jnp.heaviside_pos (x := f e - (tf e).f2) (by linarith)]
  ring

/-- the amplitude at a frequency below the cutoff is continuously differentiable -/
lemma ampAt_C1 (h : TfFam θ tf e0) {f D : E → ℝ} (hf : ContDiffAt ℝ ∞ f e0) (hD : ContDiffAt ℝ ∞ D e0) (f0 : 0 < f e0)
    (D0 : 0 < D e0) {thr : E → ℝ} (hthr : ∀ᶠ e in 𝓝 e0, f e < thr e) :
    ContDiffAt ℝ 1 (fun e => ampAt (θ e) (get_coeffs (θ e)) (tf e) (D e) (thr e) (f e)) e0 := by
  have hM := h.toSmoothFam.Ms_smooth
  have hM0 := h.toSmoothFam.Ms_pos
  obtain ⟨r3, r34, -⟩ := h.regions
  have hMs : ContDiffAt ℝ ∞ (fun p : E × ℝ => p.2 * Ms (θ p.1)) (e0, f e0) :=
    contDiffAt_snd.mul (h.toSmoothFam.fst _).Ms_smooth
  have pM := mul_pos f0 hM0
  have quart : ∀ (c0 c1 c2 c3 c4 x : ℝ), deriv (fun y : ℝ => c0 + c1 * y + c2 * y ^ 2 + c3 * y ^ 3 + c4 * y ^ 4) x
      = c1 + 2 * c2 * x + 3 * c3 * x ^ 2 + 4 * c4 * x ^ 3 := by
    intro c0 c1 c2 c3 c4 x
    have h := ((((hasDerivAt_const x c0).add ((hasDerivAt_id x).const_mul c1)).add
      (((hasDerivAt_id x).pow 2).const_mul c2)).add (((hasDerivAt_id x).pow 3).const_mul c3)).add
      (((hasDerivAt_id x).pow 4).const_mul c4)
    have h' := h.deriv
    simp only [id_eq] at h'
    calc _ = _ := h'
      _ = _ := by push_cast; ring
  have cA : ∀ (t : Theta) (u : TransFreqs) (x : ℝ), ContDiffAt ℝ 1
      (fun y => get_IIa_Amp y t (get_coeffs t) u.f3 u.f4 u.f_RD u.f_damp) x := by
    intro t u x
    unfold get_IIa_Amp
    simp only
    fun_prop
  have n12 : ∀ {a b k : ℝ}, 0 < k → a < b → a * k ≠ (a + b) / 2 * k := by
    intro a b k hk hab he
    have := mul_right_cancel₀ hk.ne' he
    linarith
  have n13 : ∀ {a b k : ℝ}, 0 < k → a < b → a * k ≠ b * k := by
    intro a b k hk hab he
    have := mul_right_cancel₀ hk.ne' he
    linarith
  have n23 : ∀ {a b k : ℝ}, 0 < k → a < b → (a + b) / 2 * k ≠ b * k := by
    intro a b k hk hab he
    have := mul_right_cancel₀ hk.ne' he
    linarith
  have main := glue_three
    (I := fun e x => PhenomD.get_inspiral_Amp (x * Ms (θ e)) (θ e) (get_coeffs (θ e)))
    (N := fun e x => get_IIa_Amp (x * Ms (θ e)) (θ e) (get_coeffs (θ e)) (tf e).f3 (tf e).f4
      (tf e).f_RD (tf e).f_damp)
    (R := fun e x => get_IIb_Amp (x * Ms (θ e)) (θ e) (get_coeffs (θ e)) (tf e).f_RD (tf e).f_damp)
    (x := f) (f1 := fun e => (tf e).f3) (f2 := fun e => (tf e).f4) (fc := f e0 + 1) (e0 := e0)
    (hf.of_le (by simp)) (h.f3.of_le (by simp)) (h.f4.of_le (by simp)) r34 (by linarith)
    (fun _ => ((h.toSmoothFam.fst _).inspiral_amp hMs pM).of_le (by simp))
    (fun _ _ => ((h.fst _).IIa_amp hMs).of_le (by simp))
    (fun _ => ((h.fst _).IIb_amp hMs).of_le (by simp))
    (h.eventually_pos.mono fun e ⟨c0, _, _, c3, c34, _⟩ => ?_)
    (h.eventually_pos.mono fun e ⟨c0, _, _, c3, c34, _⟩ => ?_)
    (h.eventually_pos.mono fun e ⟨c0, _, _, c3, c34, _⟩ => ?_)
    (h.eventually_pos.mono fun e ⟨c0, _, _, c3, c34, cd, c6⟩ => ?_)
  · have a0 := h.toSmoothFam.amp0 (hf.mul hM) pM
    have dist : ContDiffAt ℝ ∞ (fun e => D e * m_per_Mpc / C) e0 := (hD.mul contDiffAt_const).div_const C
    have hne : D e0 * m_per_Mpc / C ≠ 0 := by
      have : (0 : ℝ) < m_per_Mpc := by unfold m_per_Mpc; norm_num
      have : (0 : ℝ) < C := by unfold C; norm_num
      positivity
    have full := ((((a0.of_le (m := 1) (by simp)).mul
      (contDiffAt_const (c := 2 * Real.sqrt (5 / (64 * PI))))).mul main).mul
      ((hM.pow 2).of_le (m := 1) (by simp))).div (dist.of_le (m := 1) (by simp)) hne
    refine full.congr_of_eventuallyEq ?_
    filter_upwards [hf.continuousAt.eventually_lt_const (show f e0 < f e0 + 1 by linarith), hthr] with e he ht
    simp only [Pi.div_apply, ampAt]
    rw [Jnp.heaviside_pos (x := f e0 + 1 - f e) (by linarith), Jnp.heaviside_pos (x := thr e - f e) (by linarith)]
    ring
  · exact (delta_value1 _ _ _ _ _ (n12 c0 c34) (n13 c0 c34) (n23 c0 c34)).symm
  · rw [(hasDerivAt_comp_mul (cd_inspiral_Amp (θ e) _ (mul_pos c3 c0))).deriv, (hasDerivAt_comp_mul (cA (θ e) (tf e) _)).deriv]
    congr 1
    exact ((quart _ _ _ _ _ _).trans (delta_slope1 _ _ _ _ _ (n12 c0 c34) (n13 c0 c34) (n23 c0 c34))).symm
  · exact delta_value3 _ _ _ _ _ (n12 c0 c34) (n13 c0 c34) (n23 c0 c34)
  · have hw : (tf e).f_damp * ((θ e).m1 * gt + (θ e).m2 * gt) * get_coeffs (θ e) 6 ≠ 0 :=
      (mul_pos (mul_pos cd c0) c6).ne'
    rw [(hasDerivAt_comp_mul (cA (θ e) (tf e) _)).deriv, (hasDerivAt_comp_mul (cd_IIb_Amp (θ e) _ _ _ hw _)).deriv]
    congr 1
    exact (quart _ _ _ _ _ _).trans (delta_slope3 _ _ _ _ _ (n12 c0 c34) (n13 c0 c34) (n23 c0 c34))

/-- the phase of a sample below the cutoff -/
lemma psi_C1 (h : TfFam θ tf e0) {f fr tc phic : E → ℝ} (hf : ContDiffAt ℝ ∞ f e0) (hfr : ContDiffAt ℝ ∞ fr e0)
    (ht : ContDiffAt ℝ ∞ tc e0) (hp : ContDiffAt ℝ ∞ phic e0) (f0 : 0 < f e0) (fr0 : 0 < fr e0) :
    ContDiffAt ℝ 1 (fun e => psiAt (θ e) (get_coeffs (θ e)) (tf e) (tc e) (phic e) (fr e) (f e)) e0 := by
  have hM := h.toSmoothFam.Ms_smooth
  obtain ⟨r3, r34, -⟩ := h.regions
  have t0 := smooth_deriv (G := fun e x => get_IIb_raw_phase x (θ e) (get_coeffs (θ e)) (tf e).f_RD
    (tf e).f_damp) (x := fun e => (tf e).f4 * Ms (θ e))
    ((h.fst _).IIb_raw contDiffAt_snd (mul_pos (r3.trans r34) h.toSmoothFam.Ms_pos)) (h.f4.mul hM)
  have lin := (t0.mul ((hf.mul hM).sub (hfr.mul hM))).of_le (m := 1) (by simp)
  have ext := (((contDiffAt_const (c := 2 * PI)).mul hf).mul ht |>.sub ((contDiffAt_const (c := (2 : ℝ))).mul hp)).of_le
    (m := 1) (by simp)
  exact ((h.Phase_C1 hf f0).sub (lin.add (h.Phase_C1 hfr fr0))).add ext

end PhenomD.TfFam

namespace PhenomD.DFam
variable {E : Type} [NormedAddCommGroup E] [NormedSpace ℝ E] {q : QNM} {θ : E → Theta} {e0 : E}

lemma toTf (h : DFam q θ e0) : TfFam θ (fun e => tfOf q (θ e)) e0 :=
  ⟨h.toSmoothFam, h.f1, h.f2, h.f3, h.f4, h.fRD, h.fdamp, h.regions, h.phase_regions⟩

lemma Phase_C1 (h : DFam q θ e0) {f : E → ℝ} (hf : ContDiffAt ℝ ∞ f e0) (f0 : 0 < f e0) :
    ContDiffAt ℝ 1 (fun e => Phase (f e) (θ e) (get_coeffs (θ e)) (tfOf q (θ e))) e0 := h.toTf.Phase_C1 hf f0

lemma ampAt_C1 (h : DFam q θ e0) {f D : E → ℝ} (hf : ContDiffAt ℝ ∞ f e0) (hD : ContDiffAt ℝ ∞ D e0) (f0 : 0 < f e0)
    (D0 : 0 < D e0) {thr : E → ℝ} (hthr : ∀ᶠ e in 𝓝 e0, f e < thr e) :
    ContDiffAt ℝ 1 (fun e => ampAt (θ e) (get_coeffs (θ e)) (tfOf q (θ e)) (D e) (thr e) (f e)) e0 :=
  h.toTf.ampAt_C1 hf hD f0 D0 hthr

lemma psi_C1 (h : DFam q θ e0) {f fr tc phic : E → ℝ} (hf : ContDiffAt ℝ ∞ f e0) (hfr : ContDiffAt ℝ ∞ fr e0)
    (ht : ContDiffAt ℝ ∞ tc e0) (hp : ContDiffAt ℝ ∞ phic e0) (f0 : 0 < f e0) (fr0 : 0 < fr e0) :
    ContDiffAt ℝ 1 (fun e => psiAt (θ e) (get_coeffs (θ e)) (tfOf q (θ e)) (tc e) (phic e) (fr e) (f e)) e0 :=
  h.toTf.psi_C1 hf hfr ht hp f0 fr0

end PhenomD.DFam
end Ripple

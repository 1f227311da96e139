/-
  Helper lemmas for C121: the slope of a post-Newtonian phase at low frequency.
-/
import Verif.Spec.Chirp
import Verif.Spec.PN
import Verif.Proofs.Arrival
import Mathlib.Analysis.SpecialFunctions.Log.NegMulLog
import Mathlib.Analysis.Calculus.ContDiff.Basic
import Mathlib.Analysis.Calculus.ContDiff.Operations

namespace Ripple
open Filter Topology Set

/-- `P` tends to `a` at 0 from the right and `v P'(v)` tends to 0 -/
def Slow (P : ℝ → ℝ) (a : ℝ) : Prop :=
  ∃ P' : ℝ → ℝ, (∀ᶠ v in 𝓝[>] 0, HasDerivAt P (P' v) v) ∧ Tendsto P (𝓝[>] 0) (𝓝 a) ∧
    Tendsto (fun v => v * P' v) (𝓝[>] 0) (𝓝 0)

lemma Slow.add {P Q : ℝ → ℝ} {a b : ℝ} (hP : Slow P a) (hQ : Slow Q b) : Slow (fun v => P v + Q v) (a + b) := by
  obtain ⟨P', p1, p2, p3⟩ := hP
  obtain ⟨Q', q1, q2, q3⟩ := hQ
  refine ⟨fun v => P' v + Q' v, ?_, p2.add q2, ?_⟩
  · filter_upwards [p1, q1] with v h1 h2
    exact h1.add h2
  · have := p3.add q3
    rw [add_zero] at this
    refine this.congr fun v => ?_
    ring

lemma Slow.mul {P Q : ℝ → ℝ} {a b : ℝ} (hP : Slow P a) (hQ : Slow Q b) : Slow (fun v => P v * Q v) (a * b) := by
  obtain ⟨P', p1, p2, p3⟩ := hP
  obtain ⟨Q', q1, q2, q3⟩ := hQ
  refine ⟨fun v => P' v * Q v + P v * Q' v, ?_, p2.mul q2, ?_⟩
  · filter_upwards [p1, q1] with v h1 h2
    exact h1.mul h2
  · have := (p3.mul q2).add (p2.mul q3)
    rw [zero_mul, mul_zero, add_zero] at this
    refine this.congr fun v => ?_
    ring

lemma Slow.of_smooth {P : ℝ → ℝ} (h : ContDiffAt ℝ 1 P 0) : Slow P (P 0) := by
  refine ⟨deriv P, ?_, h.continuousAt.tendsto.mono_left nhdsWithin_le_nhds, ?_⟩
  · have := h.eventually (by simp)
    filter_upwards [nhdsWithin_le_nhds this] with v hv
    exact (hv.differentiableAt one_ne_zero).hasDerivAt
  · have hc : ContinuousAt (deriv P) 0 := by
      have := (h.continuousAt_fderiv one_ne_zero).clm_apply (continuousAt_const (y := (1 : ℝ)))
      exact this.congr (Eventually.of_forall fun x => by simp)
    have := (continuousAt_id.mul hc).tendsto
    simp only [id, zero_mul, Pi.mul_apply] at this
    exact this.mono_left nhdsWithin_le_nhds

lemma Slow.vlog : Slow (fun v => v * Real.log v) 0 := by
  have h := Real.continuous_mul_log.tendsto 0
  rw [zero_mul] at h
  refine ⟨fun v => Real.log v + 1, ?_, h.mono_left nhdsWithin_le_nhds, ?_⟩
  · filter_upwards [self_mem_nhdsWithin] with v hv
    exact Real.hasDerivAt_mul_log (ne_of_gt hv)
  · have := (h.add tendsto_id).mono_left (nhdsWithin_le_nhds (s := Ioi 0))
    simp only [id, add_zero] at this
    refine this.congr fun v => ?_
    ring

lemma Slow.congr {P Q : ℝ → ℝ} {a : ℝ} (h : Slow P a) (e : ∀ v, 0 < v → P v = Q v) : Slow Q a := by
  obtain ⟨P', p1, p2, p3⟩ := h
  have ev : P =ᶠ[𝓝[>] 0] Q := by
    filter_upwards [self_mem_nhdsWithin] with v hv
    exact e v hv
  refine ⟨P', ?_, p2.congr' ev, p3⟩
  filter_upwards [p1, self_mem_nhdsWithin] with v hv h0
  refine hv.congr_of_eventuallyEq ?_
  filter_upwards [Ioi_mem_nhds h0] with w hw
  exact (e w hw).symm

/-- the variable of the post-Newtonian series -/
noncomputable def vLow (M f : ℝ) : ℝ := (Real.pi * M * f) ^ ((1 : ℝ) / 3)

lemma vLow_pow {M f : ℝ} (hM : 0 < M) (hf : 0 < f) (k : ℕ) {p : ℝ} (hp : p = (k : ℝ) / 3) : (Real.pi * M * f) ^ p = vLow M f ^ k :=
  PhenomD.third_pow (by have := Real.pi_pos; positivity) k hp

lemma vLow_cube {M f : ℝ} (hM : 0 < M) (hf : 0 < f) : vLow M f ^ 3 = Real.pi * M * f := by
  rw [← vLow_pow hM hf 3 (p := 1) (by norm_num), Real.rpow_one]

lemma vLow_tendsto {M : ℝ} (hM : 0 < M) : Tendsto (vLow M) (𝓝[>] 0) (𝓝[>] 0) := by
  refine tendsto_nhdsWithin_iff.2 ⟨?_, ?_⟩
  · have hc : ContinuousAt (vLow M) 0 := by
      unfold vLow
      exact ContinuousAt.rpow_const (by fun_prop) (Or.inr (by norm_num))
    have h0 : vLow M 0 = 0 := by unfold vLow; rw [mul_zero, Real.zero_rpow (by norm_num)]
    have := hc.tendsto
    rw [h0] at this
    exact this.mono_left nhdsWithin_le_nhds
  · filter_upwards [self_mem_nhdsWithin] with f hf
    have hf : 0 < f := hf
    exact Real.rpow_pos_of_pos (by have := Real.pi_pos; positivity) _

lemma vLow_deriv {M f : ℝ} (hM : 0 < M) (hf : 0 < f) : HasDerivAt (vLow M) (Real.pi * M / (3 * vLow M f ^ 2)) f := by
  have hp : 0 < Real.pi * M * f := by have := Real.pi_pos; positivity
  have h : HasDerivAt (fun y : ℝ => Real.pi * M * y) (Real.pi * M) f := by simpa using (hasDerivAt_id f).const_mul (Real.pi * M)
  have := h.rpow_const (p := 1 / 3) (Or.inl hp.ne')
  refine this.congr_deriv ?_
  rw [PhenomD.third_pow_neg hp 2 (by push_cast; norm_num)]
  unfold vLow
  field_simp

/-- the slope of a phase `P(v) / v^5` -/
lemma slope_low {M a : ℝ} (hM : 0 < M) {P Φ : ℝ → ℝ} (hP : Slow P a) (e : ∀ᶠ f in 𝓝[>] 0, Φ f = P (vLow M f) / vLow M f ^ 5) :
    ∃ T : ℝ → ℝ, (∀ᶠ f in 𝓝[>] 0, HasDerivAt Φ (T f) f) ∧
      Tendsto (fun f => T f * vLow M f ^ 8) (𝓝[>] 0) (𝓝 (-(5 * Real.pi * M / 3) * a)) := by
  obtain ⟨P', p1, p2, p3⟩ := hP
  have hv := vLow_tendsto hM
  refine ⟨fun f => Real.pi * M / 3 * (vLow M f * P' (vLow M f) - 5 * P (vLow M f)) / vLow M f ^ 8, ?_, ?_⟩
  · obtain ⟨u, hu, hs⟩ := mem_nhdsGT_iff_exists_Ioo_subset.1 e
    filter_upwards [hv.eventually p1, Ioo_mem_nhdsGT hu] with f h1 h2
    have hf : 0 < f := h2.1
    have v0 : 0 < vLow M f := Real.rpow_pos_of_pos (by have := Real.pi_pos; positivity) _
    have d := vLow_deriv hM hf
    have d2 := h1.comp f d
    have d3 := d2.div (d.pow 5) (by simp only [Pi.pow_apply]; positivity)
    have d4 := d3.congr_of_eventuallyEq (f₁ := Φ) (by
      filter_upwards [Ioo_mem_nhds h2.1 h2.2] with x hx
      exact hs hx)
    refine d4.congr_deriv ?_
    simp only [Function.comp, Pi.pow_apply]
    generalize vLow M f = v at *
    field_simp
    push_cast
    ring
  · have h1 := ((p3.comp hv).sub ((p2.comp hv).const_mul 5)).const_mul (Real.pi * M / 3)
    have e2 : Real.pi * M / 3 * (0 - 5 * a) = -(5 * Real.pi * M / 3) * a := by ring
    rw [e2] at h1
    refine h1.congr' ?_
    filter_upwards [self_mem_nhdsWithin] with f hf
    have hf : 0 < f := hf
    have v0 : 0 < vLow M f := Real.rpow_pos_of_pos (by have := Real.pi_pos; positivity) _
    simp only [Function.comp]
    field_simp

/-- the time to coalescence in terms of the chirp mass -/
lemma time_eq {M η c f : ℝ} (hc : 0 < c) (hη : 0 < η) (hf : 0 < f) (e : M = c / η ^ ((3 : ℝ) / 5)) :
    5 / 256 * c ^ (-((5 : ℝ) / 3)) * (Real.pi * f) ^ (-((8 : ℝ) / 3)) = 5 * M / (256 * η) * (Real.pi * M * f) ^ (-((8 : ℝ) / 3)) := by
  have hpi := Real.pi_pos
  have hM : 0 < M := by rw [e]; positivity
  have e1 : (Real.pi * M * f) ^ (-((8 : ℝ) / 3)) = M ^ (-((8 : ℝ) / 3)) * (Real.pi * f) ^ (-((8 : ℝ) / 3)) := by
    rw [← Real.mul_rpow hM.le (by positivity)]; congr 1; ring
  have e2 : M * M ^ (-((8 : ℝ) / 3)) = M ^ (-((5 : ℝ) / 3)) := by
    nth_rewrite 1 [← Real.rpow_one M]
    rw [← Real.rpow_add hM]; norm_num
  have e3 : M ^ (-((5 : ℝ) / 3)) = c ^ (-((5 : ℝ) / 3)) * η := by
    rw [e, Real.div_rpow hc.le (by positivity), ← Real.rpow_mul hη.le, show (3 : ℝ) / 5 * -(5 / 3) = -1 by norm_num, Real.rpow_neg_one]
    field_simp
  rw [e1, show 5 * M / (256 * η) * (M ^ (-((8 : ℝ) / 3)) * (Real.pi * f) ^ (-((8 : ℝ) / 3))) =
    5 / (256 * η) * (M * M ^ (-((8 : ℝ) / 3))) * (Real.pi * f) ^ (-((8 : ℝ) / 3)) by ring, e2, e3]
  field_simp

/-- the slope of a phase `(a (1 + k v^2 + l v^3) + v^3 E(v)) / v^5` with small `E`, to two orders beyond the leading one -/
lemma slope_pn {M a k l : ℝ} (hM : 0 < M) {E Φ : ℝ → ℝ} (hE : Slow E 0)
    (e : ∀ᶠ f in 𝓝[>] 0, Φ f = (a * (1 + k * vLow M f ^ 2 + l * vLow M f ^ 3) + vLow M f ^ 3 * E (vLow M f)) / vLow M f ^ 5) :
    ∃ T : ℝ → ℝ, (∀ᶠ f in 𝓝[>] 0, HasDerivAt Φ (T f) f) ∧
      Tendsto (fun f => (T f * vLow M f ^ 8 + 5 * Real.pi * M / 3 * a + Real.pi * M * a * k * vLow M f ^ 2) / vLow M f ^ 3) (𝓝[>] 0)
        (𝓝 (-(2 / 3 * (Real.pi * M * a * l)))) := by
  obtain ⟨E', p1, p2, p3⟩ := hE
  have hv := vLow_tendsto hM
  refine ⟨fun f => Real.pi * M / 3 * (-5 * a - 3 * a * k * vLow M f ^ 2 - 2 * a * l * vLow M f ^ 3
    + vLow M f ^ 3 * (vLow M f * E' (vLow M f) - 2 * E (vLow M f)))
    / vLow M f ^ 8, ?_, ?_⟩
  · obtain ⟨u, hu, hs⟩ := mem_nhdsGT_iff_exists_Ioo_subset.1 e
    filter_upwards [hv.eventually p1, Ioo_mem_nhdsGT hu] with f h1 h2
    have hf : 0 < f := h2.1
    have v0 : 0 < vLow M f := Real.rpow_pos_of_pos (by have := Real.pi_pos; positivity) _
    have d := vLow_deriv hM hf
    have dv2 : HasDerivAt (fun v : ℝ => v ^ 2) (2 * vLow M f) (vLow M f) := by simpa using hasDerivAt_pow 2 (vLow M f)
    have dv3 : HasDerivAt (fun v : ℝ => v ^ 3) (3 * vLow M f ^ 2) (vLow M f) := by simpa using hasDerivAt_pow 3 (vLow M f)
    have hP : HasDerivAt (fun v => a * (1 + k * v ^ 2 + l * v ^ 3) + v ^ 3 * E v)
        (a * (k * (2 * vLow M f) + l * (3 * vLow M f ^ 2)) + (3 * vLow M f ^ 2 * E (vLow M f) + vLow M f ^ 3 * E' (vLow M f))) (vLow M f) :=
      ((((dv2.const_mul k).const_add 1).add (dv3.const_mul l)).const_mul a).add (dv3.mul h1)
    have d2 := hP.comp f d
    have d3 := d2.div (d.pow 5) (by simp only [Pi.pow_apply]; positivity)
    have d4 := d3.congr_of_eventuallyEq (f₁ := Φ) (by
      filter_upwards [Ioo_mem_nhds h2.1 h2.2] with x hx
      exact hs hx)
    refine d4.congr_deriv ?_
    simp only [Function.comp, Pi.pow_apply]
    generalize vLow M f = v at *
    field_simp
    push_cast
    ring
  · have h1 := (((p3.comp hv).sub ((p2.comp hv).const_mul 2)).const_add (-2 * a * l)).const_mul (Real.pi * M / 3)
    have e2 : Real.pi * M / 3 * (-2 * a * l + (0 - 2 * 0)) = -(2 / 3 * (Real.pi * M * a * l)) := by ring
    rw [e2] at h1
    refine h1.congr' ?_
    filter_upwards [self_mem_nhdsWithin] with f hf
    have hf : 0 < f := hf
    have v0 : 0 < vLow M f := Real.rpow_pos_of_pos (by have := Real.pi_pos; positivity) _
    simp only [Function.comp]
    field_simp
    ring

/-- a strain with that phase chirps with both corrections -/
lemma chirpsSO_of {M η β a c k' l' : ℝ} (hc : 0 < c) (hη : 0 < η) (hMc : M = c / η ^ ((3 : ℝ) / 5)) {E Φ A : ℝ → ℝ} {h : ℝ → ℂ} {k : ℂ} (hk : k ≠ 0)
    (hE : Slow E 0) (ha : a = 3 / (128 * η)) (hk' : k' = Spec.psi2 η) (hl' : l' = 4 * β - 16 * Real.pi)
    (e : ∀ᶠ f in 𝓝[>] 0, Φ f = (a * (1 + k' * vLow M f ^ 2 + l' * vLow M f ^ 3) + vLow M f ^ 3 * E (vLow M f)) / vLow M f ^ 5)
    (hA : ∀ᶠ f in 𝓝[>] 0, DifferentiableAt ℝ A f)
    (hA0 : ∀ᶠ f in 𝓝[>] 0, A f ≠ 0)
    (hh : ∀ᶠ f in 𝓝[>] 0, h f = k * ((A f : ℂ) * Complex.exp (Complex.I * ((-Φ f : ℝ) : ℂ)))) : ChirpsSO h c η β := by
  have hM : 0 < M := by rw [hMc]; positivity
  obtain ⟨T, t1, t2⟩ := slope_pn hM hE e
  refine ⟨fun f => T f / (2 * Real.pi), ?_, ?_⟩
  · obtain ⟨u, hu, hs⟩ := mem_nhdsGT_iff_exists_Ioo_subset.1 hh
    filter_upwards [t1, hA, hA0, Ioo_mem_nhdsGT hu] with f h1 h2 h3 h4
    exact arrives_polar h2 h3 hk h1 (by
      filter_upwards [Ioo_mem_nhds h4.1 h4.2] with x hx
      exact hs hx)
  · have hpi := Real.pi_pos
    rw [← hMc]
    have h1 := t2.mul_const (256 * η / (5 * M) / (2 * Real.pi) * M)
    have e2 : -(2 / 3 * (Real.pi * M * a * l')) * (256 * η / (5 * M) / (2 * Real.pi) * M) = -(8 / 5 * (β - 4 * Real.pi) * M) := by
      rw [ha, hl']; field_simp; ring
    rw [e2] at h1
    refine h1.congr' ?_
    filter_upwards [self_mem_nhdsWithin] with f hf
    have hf : 0 < f := hf
    have hp : 0 < Real.pi * M * f := by positivity
    have v0 : 0 < vLow M f := Real.rpow_pos_of_pos hp _
    have r : M ^ ((2 : ℝ) / 3) * (Real.pi * f) ^ ((2 : ℝ) / 3) = vLow M f ^ 2 := by
      rw [← Real.mul_rpow hM.le (by positivity), ← vLow_pow hM hf 2 (p := 2 / 3) (by norm_num)]; congr 1; ring
    rw [time_eq hc hη hf hMc, PhenomD.third_pow_neg hp 8 (by push_cast; norm_num), show (Real.pi * M * f) ^ ((1 : ℝ) / 3) = vLow M f from rfl,
      ha, hk', Spec.psi2, mul_assoc _ (M ^ ((2 : ℝ) / 3)), r, vLow_cube hM hf]
    field_simp
    ring

/-- each correction determines the order before -/
lemma ChirpsSO.pn {h : ℝ → ℂ} {c η β : ℝ} (a : ChirpsSO h c η β) : ChirpsPN h c η := by
  obtain ⟨T, t1, t2⟩ := a
  refine ⟨T, t1, ?_⟩
  have hpi := Real.pi_pos
  have z : Tendsto (fun f : ℝ => (Real.pi * f) ^ ((1 : ℝ) / 3)) (𝓝[>] 0) (𝓝 0) := by
    have hc : ContinuousAt (fun f : ℝ => (Real.pi * f) ^ ((1 : ℝ) / 3)) 0 :=
      ContinuousAt.rpow_const (by fun_prop) (Or.inr (by norm_num))
    have := hc.tendsto
    rw [mul_zero, Real.zero_rpow (by norm_num)] at this
    exact this.mono_left nhdsWithin_le_nhds
  have l := (t2.mul z).sub_const ((743 / 252 + 11 / 3 * η) * (c / η ^ ((3 : ℝ) / 5)) ^ ((2 : ℝ) / 3))
  rw [mul_zero, zero_sub] at l
  refine l.congr' ?_
  filter_upwards [self_mem_nhdsWithin] with f hf
  have hf : 0 < f := hf
  have hp : 0 < Real.pi * f := by positivity
  have e : (Real.pi * f) ^ ((1 : ℝ) / 3) * (Real.pi * f) ^ ((2 : ℝ) / 3) = Real.pi * f := by
    rw [← Real.rpow_add hp]; norm_num
  have r1 : 0 < (Real.pi * f) ^ ((1 : ℝ) / 3) := by positivity
  have r0 : 0 < (Real.pi * f) ^ ((2 : ℝ) / 3) := by positivity
  generalize T f / (5 / 256 * c ^ (-((5 : ℝ) / 3)) * (Real.pi * f) ^ (-((8 : ℝ) / 3))) = w
  nth_rewrite 2 [← e]
  field_simp
  ring

/-- the first correction determines the leading order -/
lemma ChirpsPN.chirps {h : ℝ → ℂ} {c η : ℝ} (a : ChirpsPN h c η) : Chirps h c := by
  obtain ⟨T, t1, t2⟩ := a
  refine ⟨T, t1, ?_⟩
  have hpi := Real.pi_pos
  have z : Tendsto (fun f : ℝ => (Real.pi * f) ^ ((2 : ℝ) / 3)) (𝓝[>] 0) (𝓝 0) := by
    have hc : ContinuousAt (fun f : ℝ => (Real.pi * f) ^ ((2 : ℝ) / 3)) 0 :=
      ContinuousAt.rpow_const (by fun_prop) (Or.inr (by norm_num))
    have := hc.tendsto
    rw [mul_zero, Real.zero_rpow (by norm_num)] at this
    exact this.mono_left nhdsWithin_le_nhds
  have l := (t2.mul z).sub_const 1
  rw [mul_zero, zero_sub] at l
  refine l.congr' ?_
  filter_upwards [self_mem_nhdsWithin] with f hf
  have hf : 0 < f := hf
  have r0 : 0 < (Real.pi * f) ^ ((2 : ℝ) / 3) := by positivity
  rw [div_mul_cancel₀ _ r0.ne']
  ring

/-- the textbook phase plus terms that are small compared to the leading ones -/
lemma chirps_f2 {m1 m2 c η' : ℝ} (h1 : 0 < m1) (h2 : 0 < m2) (hc : 0 < c)
    (hMc : (m1 + m2) * gt = c / Spec.eta m1 m2 ^ ((3 : ℝ) / 5)) (hη' : Spec.eta m1 m2 = η') (χ1 χ2 l1 l2 q1 q2 : ℝ) {R Φ A : ℝ → ℝ} {h : ℝ → ℂ} {k : ℂ} (hk : k ≠ 0)
    (hR : Slow (fun v => v ^ 2 * R v) 0)
    (e : ∀ᶠ f in 𝓝[>] 0, Φ f = Spec.f2Phase m1 m2 χ1 χ2 l1 l2 q1 q2 f + R (vLow ((m1 + m2) * gt) f))
    (hA : ∀ᶠ f in 𝓝[>] 0, DifferentiableAt ℝ A f) (hA0 : ∀ᶠ f in 𝓝[>] 0, A f ≠ 0)
    (hh : ∀ᶠ f in 𝓝[>] 0, h f = k * ((A f : ℂ) * Complex.exp (Complex.I * ((-Φ f : ℝ) : ℂ)))) :
    Chirps h c ∧ ChirpsPN h c η' ∧ ChirpsSO h c η' (spinOrbit m1 m2 χ1 χ2) := by
  have hM : 0 < (m1 + m2) * gt := mul_pos (add_pos h1 h2) gt_pos
  have hη : 0 < Spec.eta m1 m2 := by unfold Spec.eta; positivity
  set η := Spec.eta m1 m2 with hηd
  set N := 3 / (128 * η) with hN
  set δ := Spec.delta m1 m2
  set χs := (χ1 + χ2) / 2
  set χa := (χ1 - χ2) / 2
  set X1 := m1 / (m1 + m2)
  set X2 := m2 / (m1 + m2)
  set B := Spec.psi6 EulerGamma (Real.log 4) η δ χs χa + Spec.psi6SS X1 X2 χ1 χ2 q1 q2 with hB
  set P1 : ℝ → ℝ := fun v => N * ((Spec.psi4 η + Spec.psi4SS X1 X2 χ1 χ2 q1 q2) * v + Spec.psi5 η δ χs χa * v ^ 2 + B * v ^ 3
    + Spec.psi7 η δ χs χa * v ^ 4 + Spec.psi10 m1 l1 m2 l2 * v ^ 7 + Spec.psi12 m1 l1 m2 l2 * v ^ 9 + Spec.psi13 m1 l1 m2 l2 * v ^ 10
    + (Spec.psi14 X1 l1 + Spec.psi14 X2 l2) * v ^ 11) with hP1
  set P2 : ℝ → ℝ := fun v => N * (3 * Spec.psi5 η δ χs χa * v - 6848 / 21 * v ^ 2) with hP2
  have s1 : Slow P1 (P1 0) := Slow.of_smooth (by rw [hP1]; fun_prop)
  have s2 : Slow P2 (P2 0) := Slow.of_smooth (by rw [hP2]; fun_prop)
  have s := (s1.add (s2.mul Slow.vlog)).add hR
  have z : P1 0 + P2 0 * 0 + 0 = 0 := by simp [hP1]
  rw [z] at s
  have hβ : Spec.psi3 η δ χs χa = 4 * spinOrbit m1 m2 χ1 χ2 - 16 * Real.pi := by
    simp only [Spec.psi3, spinOrbit, hηd, Spec.eta, δ, Spec.delta, χs, χa]
    have : m1 + m2 ≠ 0 := (add_pos h1 h2).ne'
    field_simp
    ring
  have so : ChirpsSO h c η (spinOrbit m1 m2 χ1 χ2) := by
    refine chirpsSO_of (E := fun v => P1 v + P2 v * (v * Real.log v) + v ^ 2 * R v) (a := N) (k' := Spec.psi2 η) (l' := Spec.psi3 η δ χs χa)
      hc hη hMc hk s hN rfl hβ ?_ hA hA0 hh
    · filter_upwards [e, self_mem_nhdsWithin] with f hf h0
      have h0 : 0 < f := h0
      rw [hf]
      have v0 : 0 < vLow ((m1 + m2) * gt) f := Real.rpow_pos_of_pos (by have := Real.pi_pos; positivity) _
      unfold Spec.f2Phase
      simp only
      rw [show (Real.pi * ((m1 + m2) * gt) * f) ^ ((1 : ℝ) / 3) = vLow ((m1 + m2) * gt) f from rfl]
      generalize vLow ((m1 + m2) * gt) f = v at *
      rw [Real.log_mul (by norm_num) v0.ne']
      have e6 : Spec.psi6 EulerGamma (Real.log 4 + Real.log v) η δ χs χa = Spec.psi6 EulerGamma (Real.log 4) η δ χs χa
          - 6848 / 21 * Real.log v := by unfold Spec.psi6; ring
      rw [← hηd, e6, hP1, hP2, hB, hN]
      simp only
      field_simp
      ring
  exact ⟨so.pn.chirps, hη' ▸ so.pn, hη' ▸ so⟩

end Ripple

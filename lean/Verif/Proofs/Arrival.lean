/-
  Helper lemmas for C119: the slope of the PhenomD phase above the last transition.
-/
import Verif.Spec.Arrival
import Verif.Proofs.PhenomDGen
import Verif.Props.PhenomDSmooth
import Verif.Props.PhenomDPhys

namespace Ripple
open PhenomD Filter Topology

lemma Arrives.unique {h : ℝ → ℂ} {f t t' : ℝ} (a : Arrives h f t) (b : Arrives h f t') : t = t' := by
  obtain ⟨d, hd, -, e⟩ := a
  obtain ⟨d', hd', -, e'⟩ := b
  rw [e, e', hd.unique hd']

/-- amplitude times phase factor -/
lemma arrives_polar {h : ℝ → ℂ} {A Φ : ℝ → ℝ} {k : ℂ} {f s : ℝ} (hA : DifferentiableAt ℝ A f) (h0 : A f ≠ 0) (hk : k ≠ 0)
    (hΦ : HasDerivAt Φ s f) (e : h =ᶠ[𝓝 f] fun x => k * ((A x : ℂ) * Complex.exp (Complex.I * ((-Φ x : ℝ) : ℂ)))) :
    Arrives h f (s / (2 * Real.pi)) := by
  have d1 : HasDerivAt (fun x => (A x : ℂ)) ((deriv A f : ℝ) : ℂ) f := hA.hasDerivAt.ofReal_comp
  have d2 : HasDerivAt (fun x => ((-Φ x : ℝ) : ℂ)) ((-s : ℝ) : ℂ) f := hΦ.neg.ofReal_comp
  have d3 := (d2.const_mul Complex.I).cexp
  have d4 := (d1.mul d3).const_mul k
  have hE : Complex.exp (Complex.I * ((-Φ f : ℝ) : ℂ)) ≠ 0 := Complex.exp_ne_zero _
  have hAc : (A f : ℂ) ≠ 0 := by exact_mod_cast h0
  refine ⟨_, d4.congr_of_eventuallyEq e, ?_, ?_⟩
  · rw [e.self_of_nhds]; exact mul_ne_zero hk (mul_ne_zero hAc hE)
  · rw [e.self_of_nhds]
    have : k * (((deriv A f : ℝ) : ℂ) * Complex.exp (Complex.I * ((-Φ f : ℝ) : ℂ)) +
        (A f : ℂ) * (Complex.exp (Complex.I * ((-Φ f : ℝ) : ℂ)) * (Complex.I * ((-s : ℝ) : ℂ)))) /
        (k * ((A f : ℂ) * Complex.exp (Complex.I * ((-Φ f : ℝ) : ℂ)))) =
        ((deriv A f / A f : ℝ) : ℂ) + Complex.I * ((-s : ℝ) : ℂ) := by
      push_cast
      field_simp
    rw [this]
    simp

namespace PhenomD

lemma slope_ring (theta : Theta) (c : Fin 19 → ℝ) (R d : ℝ) {x : ℝ} (hx : 0 < x) (hd : d * Ms theta ≠ 0) :
    deriv (fun y => get_IIb_raw_phase y theta c R d) x =
      slopeRing c (theta.m1 * gt * (theta.m2 * gt) / Ms theta ^ 2) (R * Ms theta) (d * Ms theta) x := by
  have h1 : HasDerivAt (fun y : ℝ => y ^ (-1 : ℤ)) (-(x ^ 2)⁻¹) x := by
    have := hasDerivAt_inv hx.ne'
    simpa [zpow_neg] using this
  have h2 : HasDerivAt (fun y : ℝ => y ^ ((3 : ℝ) / 4)) (3 / 4 * (x ^ ((1 : ℝ) / 4))⁻¹) x := by
    have := (hasDerivAt_id x).rpow_const (p := 3 / 4) (Or.inl hx.ne')
    rw [← Real.rpow_neg hx.le, show -((1 : ℝ) / 4) = 3 / 4 - 1 by norm_num]
    simpa using this
  have h3 : HasDerivAt (fun y : ℝ => Real.arctan ((y - c 18 * (R * Ms theta)) / (d * Ms theta)))
      (1 / (1 + ((x - c 18 * (R * Ms theta)) / (d * Ms theta)) ^ 2) * (1 / (d * Ms theta))) x :=
    (((hasDerivAt_id x).sub_const _).div_const _).arctan
  have h4 := ((((hasDerivAt_id x).const_mul (c 14)).sub (h1.const_mul (c 15))).add
    ((h2.const_mul (4 * c 16)).div_const 3)).add (h3.const_mul (c 17)) |>.div_const
      (theta.m1 * gt * (theta.m2 * gt) / Ms theta ^ 2)
  have e : deriv (fun y => get_IIb_raw_phase y theta c R d) x = _ := h4.deriv
  rw [e]
  unfold slopeRing
  congr 1
  have : (d * Ms theta) ^ 2 + (x - c 18 * (R * Ms theta)) ^ 2 ≠ 0 := by positivity
  generalize x - c 18 * (R * Ms theta) = w at *
  generalize d * Ms theta = v at *
  have hv : 0 < 1 + (w / v) ^ 2 := by positivity
  field_simp
  ring

lemma slope_mid (theta : Theta) (c : Fin 19 → ℝ) {x : ℝ} (hx : 0 < x) :
    deriv (fun y => get_IIa_raw_phase y theta c) x =
      slopeMid c (theta.m1 * gt * (theta.m2 * gt) / Ms theta ^ 2) x := by
  have h1 : HasDerivAt (fun y : ℝ => y ^ (-3 : ℤ)) (-3 * (x ^ 4)⁻¹) x := by
    have := hasDerivAt_zpow (-3) x (Or.inl hx.ne')
    rw [show (-3 - 1 : ℤ) = -((4 : ℕ) : ℤ) by norm_num, zpow_neg, zpow_natCast] at this
    exact_mod_cast this
  have h2 : HasDerivAt (fun y : ℝ => Real.log y) x⁻¹ x := Real.hasDerivAt_log hx.ne'
  have h4 := ((((hasDerivAt_id x).const_mul (c 11)).add (h2.const_mul (c 12))).sub
    ((h1.const_mul (c 13)).div_const 3)).div_const (theta.m1 * gt * (theta.m2 * gt) / Ms theta ^ 2)
  have e : deriv (fun y => get_IIa_raw_phase y theta c) x = _ := h4.deriv
  rw [e]
  unfold slopeMid
  congr 1
  field_simp
  ring

lemma third_pow {y : ℝ} (hy : 0 < y) (k : ℕ) {p : ℝ} (hp : p = (k : ℝ) / 3) : y ^ p = (y ^ ((1 : ℝ) / 3)) ^ k := by
  rw [hp, ← Real.rpow_natCast, ← Real.rpow_mul hy.le]; congr 1; ring

lemma third_pow_neg {y : ℝ} (hy : 0 < y) (k : ℕ) {p : ℝ} (hp : p = -((k : ℝ) / 3)) :
    y ^ p = ((y ^ ((1 : ℝ) / 3)) ^ k)⁻¹ := by
  rw [hp, Real.rpow_neg hy.le, third_pow hy k rfl]

lemma d_pow {x : ℝ} (hx : 0 < x) (p : ℝ) : HasDerivAt (fun y : ℝ => (PI * y) ^ p) (PI * p * (PI * x) ^ (p - 1)) x := by
  have h : HasDerivAt (fun y : ℝ => PI * y) PI x := by simpa using (hasDerivAt_id x).const_mul PI
  exact h.rpow_const (Or.inl (mul_pos PI_pos hx).ne')

lemma slope_ins (theta : Theta) (c : Fin 19 → ℝ) {x : ℝ} (hx : 0 < x) :
    deriv (fun y => get_inspiral_phase y theta c) x =
      slopeIns (get_inspiral_phase_coeffs theta) c (theta.m1 * gt * (theta.m2 * gt) / Ms theta ^ 2) x := by
  have hp := mul_pos PI_pos hx
  set u := (PI * x) ^ ((1 : ℝ) / 3) with hu
  have u0 : 0 < u := Real.rpow_pos_of_pos hp _
  have q1 : HasDerivAt (fun y : ℝ => (PI * y) ^ (-((5 : ℝ) / 3))) (PI * -(5 / 3) * (u ^ 8)⁻¹) x := by
    have := d_pow hx (-(5 / 3)); rwa [third_pow_neg hp 8 (by push_cast; ring), ← hu] at this
  have q2 : HasDerivAt (fun y : ℝ => (PI * y) ^ (-((4 : ℝ) / 3))) (PI * -(4 / 3) * (u ^ 7)⁻¹) x := by
    have := d_pow hx (-(4 / 3)); rwa [third_pow_neg hp 7 (by push_cast; ring), ← hu] at this
  have q3 : HasDerivAt (fun y : ℝ => (PI * y) ^ (-1 : ℤ)) (PI * -1 * (u ^ 6)⁻¹) x := by
    have := d_pow hx (-1); rw [third_pow_neg hp 6 (by push_cast; ring), ← hu] at this
    refine this.congr_of_eventuallyEq (Eventually.of_forall fun y => ?_)
    show (PI * y) ^ (-1 : ℤ) = (PI * y) ^ (-1 : ℝ)
    rw [← Real.rpow_intCast]; norm_num
  have q4 : HasDerivAt (fun y : ℝ => (PI * y) ^ (-((2 : ℝ) / 3))) (PI * -(2 / 3) * (u ^ 5)⁻¹) x := by
    have := d_pow hx (-(2 / 3)); rwa [third_pow_neg hp 5 (by push_cast; ring), ← hu] at this
  have q5 : HasDerivAt (fun y : ℝ => (PI * y) ^ (-((1 : ℝ) / 3))) (PI * -(1 / 3) * (u ^ 4)⁻¹) x := by
    have := d_pow hx (-(1 / 3)); rwa [third_pow_neg hp 4 (by push_cast; ring), ← hu] at this
  have q6 : HasDerivAt (fun y : ℝ => (PI * y) ^ ((1 : ℝ) / 3)) (PI * (1 / 3) * (u ^ 2)⁻¹) x := by
    have := d_pow hx (1 / 3); rwa [third_pow_neg hp 2 (by push_cast; ring), ← hu] at this
  have q7 : HasDerivAt (fun y : ℝ => (PI * y) ^ ((2 : ℝ) / 3)) (PI * (2 / 3) * (u ^ 1)⁻¹) x := by
    have := d_pow hx (2 / 3); rwa [third_pow_neg hp 1 (by push_cast; ring), ← hu] at this
  have ql : HasDerivAt (fun y : ℝ => Real.log ((PI * y) ^ ((1 : ℝ) / 3))) (PI * (1 / 3) * (u ^ 2)⁻¹ / u) x :=
    q6.log u0.ne'
  have s1 : HasDerivAt (fun y : ℝ => y ^ ((4 : ℝ) / 3)) (4 / 3 * x ^ ((1 : ℝ) / 3)) x := by
    have := (hasDerivAt_id x).rpow_const (p := 4 / 3) (Or.inl hx.ne')
    rw [show (1 : ℝ) / 3 = 4 / 3 - 1 by norm_num]; simpa using this
  have s2 : HasDerivAt (fun y : ℝ => y ^ ((5 : ℝ) / 3)) (5 / 3 * x ^ ((2 : ℝ) / 3)) x := by
    have := (hasDerivAt_id x).rpow_const (p := 5 / 3) (Or.inl hx.ne')
    rw [show (2 : ℝ) / 3 = 5 / 3 - 1 by norm_num]; simpa using this
  have s3 : HasDerivAt (fun y : ℝ => y ^ 2) (2 * x) x := by
    have := hasDerivAt_pow 2 x; norm_num at this; exact this
  set p := get_inspiral_phase_coeffs theta with hpd
  set e := theta.m1 * gt * (theta.m2 * gt) / Ms theta ^ 2 with he
  have t1 := (((((((((q1.const_mul p.phi0).add (q2.const_mul p.phi1)).add (q3.const_mul p.phi2)).add (q4.const_mul p.phi3)).add
    (q5.const_mul p.phi4)).add (ql.const_mul p.phi5_log)).add_const p.phi5).add
    ((ql.const_mul p.phi6_log).mul q6)).add (q6.const_mul p.phi6)).add (q7.const_mul p.phi7)
  have t2 := (((((hasDerivAt_id x).const_mul (c 7)).add (s1.const_mul (3 / 4 * c 8))).add (s2.const_mul (3 / 5 * c 9))).add
    (s3.const_mul (1 / 2 * c 10))).div_const e
  have t3 := ((t1.mul_const (3 / (128 * e))).sub_const (PI / 4)).add t2
  have ee : deriv (fun y => get_inspiral_phase y theta c) x = _ := t3.deriv
  rw [ee]
  unfold slopeIns
  simp only [← show PI = Real.pi from rfl, ← hu]
  simp only [mul_one]
  field_simp
  ring

/-- symmetric mass ratio as the code computes it -/
noncomputable def etaS (theta : Theta) : ℝ := theta.m1 * gt * (theta.m2 * gt) / Ms theta ^ 2

/-- slope of the total phase above the last transition, per unit of `f M`, from the slopes of the three pieces -/
noncomputable def slopeTop (theta : Theta) (c : Fin 19 → ℝ) (tf : TransFreqs) (x : ℝ) : ℝ :=
  slopeRing c (etaS theta) (tf.f_RD * Ms theta) (tf.f_damp * Ms theta) x +
    (slopeIns (get_inspiral_phase_coeffs theta) c (etaS theta) (tf.f1 * Ms theta) - slopeMid c (etaS theta) (tf.f1 * Ms theta)
      + slopeMid c (etaS theta) (tf.f2 * Ms theta)
      - slopeRing c (etaS theta) (tf.f_RD * Ms theta) (tf.f_damp * Ms theta) (tf.f2 * Ms theta))

/-- the slope of the glued phase above the last transition -/
lemma phase_slope (theta : Theta) (h1 : 0 < theta.m1) (h2 : 0 < theta.m2) (c : Fin 19 → ℝ) (tf : TransFreqs)
    (hd : 0 < tf.f_damp) (hf1 : 0 < tf.f1) (hf : tf.f1 < tf.f2) {f : ℝ} (hx : tf.f2 < f) :
    HasDerivAt (fun f => Phase f theta c tf) (Ms theta * slopeTop theta c tf (f * Ms theta)) f := by
  have hk : 0 < Ms theta := by have := gt_pos; unfold Ms; positivity
  have hf2 : 0 < tf.f2 := hf1.trans hf
  have hfp : 0 < f := hf2.trans hx
  have hdk : tf.f_damp * Ms theta ≠ 0 := (mul_pos hd hk).ne'
  have dA : ∀ b x, 0 < x → deriv (fun y => get_IIa_raw_phase y theta c + b * y) x =
      deriv (fun y => get_IIa_raw_phase y theta c) x + b := by
    intro b x hx
    have hb : HasDerivAt (fun y : ℝ => b * y) b x := by simpa using (hasDerivAt_id x).const_mul b
    have h : HasDerivAt (fun y => get_IIa_raw_phase y theta c + b * y)
        (deriv (fun y => get_IIa_raw_phase y theta c) x + b) x :=
      (((cd_IIa_raw_phase theta c hx).differentiableAt (by norm_num)).hasDerivAt).add hb
    exact h.deriv
  set a1 := slopeIns (get_inspiral_phase_coeffs theta) c (etaS theta) (tf.f1 * Ms theta) - slopeMid c (etaS theta) (tf.f1 * Ms theta)
      + slopeMid c (etaS theta) (tf.f2 * Ms theta)
      - slopeRing c (etaS theta) (tf.f_RD * Ms theta) (tf.f_damp * Ms theta) (tf.f2 * Ms theta) with ha1
  have ev : ∃ a0 : ℝ, (fun f => Phase f theta c tf) =ᶠ[𝓝 f] fun f =>
      get_IIb_raw_phase (f * Ms theta) theta c tf.f_RD tf.f_damp + a0 + a1 * (f * Ms theta) := by
    set b1 := slopeIns (get_inspiral_phase_coeffs theta) c (etaS theta) (tf.f1 * Ms theta) - slopeMid c (etaS theta) (tf.f1 * Ms theta)
      with hb1
    refine ⟨get_IIa_raw_phase (tf.f2 * Ms theta) theta c + b1 * (tf.f2 * Ms theta) + (get_inspiral_phase (tf.f1 * Ms theta) theta c
      - b1 * (tf.f1 * Ms theta) - get_IIa_raw_phase (tf.f1 * Ms theta) theta c) - a1 * (tf.f2 * Ms theta)
      - get_IIb_raw_phase (tf.f2 * Ms theta) theta c tf.f_RD tf.f_damp, ?_⟩
    · filter_upwards [lt_mem_nhds hx] with y hy
      show Phase y theta c tf = _
      unfold Phase
      simp only
      rw [Jnp.heaviside_neg (x := tf.f1 - y) (by linarith), Jnp.heaviside_neg (x := tf.f2 - y) (by linarith),
        Jnp.heaviside_pos (x := y - tf.f2) (by linarith)]
      rw [show theta.m1 * gt + theta.m2 * gt = Ms theta from rfl]
      rw [dA _ _ (mul_pos hf2 hk), slope_ins theta c (mul_pos hf1 hk), slope_mid theta c (mul_pos hf1 hk),
        slope_mid theta c (mul_pos hf2 hk), slope_ring theta c _ _ (mul_pos hf2 hk) hdk]
      rw [show theta.m1 * gt * (theta.m2 * gt) / Ms theta ^ 2 = etaS theta from rfl]
      rw [← hb1, ha1, hb1]; ring
  obtain ⟨a0, ev⟩ := ev
  refine HasDerivAt.congr_of_eventuallyEq ?_ ev
  have hB := hasDerivAt_comp_mul (k := Ms theta) (a := f) (cd_IIb_raw_phase theta c tf.f_RD tf.f_damp (mul_pos hfp hk))
  rw [slope_ring theta c _ _ (mul_pos hfp hk) hdk] at hB
  have hl : HasDerivAt (fun y : ℝ => a1 * (y * Ms theta)) (a1 * Ms theta) f := by
    simpa using ((hasDerivAt_id f).mul_const (Ms theta)).const_mul a1
  refine ((hB.add_const a0).add hl).congr_deriv ?_
  unfold slopeTop
  rw [← ha1]
  unfold etaS
  ring

/-- the phase of the generator -/
lemma psi_slope (theta : Theta) (h1 : 0 < theta.m1) (h2 : 0 < theta.m2) (c : Fin 19 → ℝ) (tf : TransFreqs)
    (hd : 0 < tf.f_damp) (hf1 : 0 < tf.f1) (hf : tf.f1 < tf.f2) (hf4 : 0 < tf.f4) (tc phic f_ref : ℝ) {f : ℝ} (hx : tf.f2 < f) :
    HasDerivAt (psiAt theta c tf tc phic f_ref) (2 * Real.pi * tc + Ms theta * (slopeTop theta c tf (f * Ms theta)
      - slopeRing c (etaS theta) (tf.f_RD * Ms theta) (tf.f_damp * Ms theta) (tf.f4 * Ms theta))) f := by
  have hk : 0 < Ms theta := by have := gt_pos; unfold Ms; positivity
  have h := phase_slope theta h1 h2 c tf hd hf1 hf hx
  have hm : HasDerivAt (fun y : ℝ => y * Ms theta - f_ref * Ms theta) (Ms theta) f := by
    simpa using ((hasDerivAt_id f).mul_const (Ms theta)).sub_const (f_ref * Ms theta)
  have ht : HasDerivAt (fun y : ℝ => 2 * PI * y * tc - 2 * phic) (2 * PI * tc) f := by
    simpa using (((hasDerivAt_id f).const_mul (2 * PI)).mul_const tc).sub_const (2 * phic)
  have e := slope_ring theta c tf.f_RD tf.f_damp (mul_pos hf4 hk) (mul_pos hd hk).ne'
  have h3 := (h.sub ((hm.const_mul (deriv (fun y => get_IIb_raw_phase y theta c tf.f_RD tf.f_damp) (tf.f4 * Ms theta))).add_const
    (Phase f_ref theta c tf))).add ht
  rw [e] at h3
  have e2 : psiAt theta c tf tc phic f_ref = fun x => Phase x theta c tf
    - (slopeRing c (theta.m1 * gt * (theta.m2 * gt) / Ms theta ^ 2) (tf.f_RD * Ms theta) (tf.f_damp * Ms theta) (tf.f4 * Ms theta)
        * (x * Ms theta - f_ref * Ms theta) + Phase f_ref theta c tf)
    + (2 * PI * x * tc - 2 * phic) := by
    funext x
    unfold psiAt
    rw [e]
  rw [e2]
  refine h3.congr_deriv ?_
  unfold etaS
  simp only [PI]
  ring

end PhenomD
end Ripple

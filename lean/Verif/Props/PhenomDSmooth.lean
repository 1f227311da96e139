/-
  Properties C28, C29: PhenomD phase and amplitude are continuously differentiable.
-/
import Verif.Proofs.PhenomD
import Verif.Proofs.Delta
import Verif.Proofs.Index

namespace Ripple
open PhenomD Set

lemma PhenomD.contDiffOn_comp_mul {g : ℝ → ℝ} {k : ℝ} (hk : 0 < k) (h : ∀ x, 0 < x → ContDiffAt ℝ 1 g x) :
    ContDiffOn ℝ 1 (fun f => g (f * k)) (Ioi 0) := fun x hx =>
  ((h (x * k) (mul_pos hx hk)).comp x (contDiffAt_id.mul contDiffAt_const)).contDiffWithinAt

lemma PhenomD.hasDerivAt_comp_mul {g : ℝ → ℝ} {k a : ℝ} (h : ContDiffAt ℝ 1 g (a * k)) :
    HasDerivAt (fun f => g (f * k)) (deriv g (a * k) * k) a := by
  have h1 := (h.differentiableAt (by norm_num)).hasDerivAt
  have h2 : HasDerivAt (fun f : ℝ => f * k) k a := by simpa using (hasDerivAt_id a).mul_const k
  exact h1.comp a h2

lemma PhenomD.deriv_affine {g : ℝ → ℝ} {k a b c : ℝ} (h : ContDiffAt ℝ 1 g (a * k)) :
    deriv (fun f => g (f * k) + c + b * (f * k)) a = (deriv g (a * k) + b) * k := by
  have h2 : HasDerivAt (fun f : ℝ => b * (f * k)) (b * k) a := by
    simpa using ((hasDerivAt_id a).mul_const k).const_mul b
  have h3 : HasDerivAt (fun f => g (f * k) + c + b * (f * k)) (deriv g (a * k) * k + b * k) a :=
    ((PhenomD.hasDerivAt_comp_mul h).add_const c).add h2
  rw [h3.deriv]; ring

/-- The glued phase is C¹ on all positive frequencies: any positive total mass, spins, fit coefficients and transition
    frequencies with `0 < f1 < f2`. -/
theorem C28_phase_C1 (theta : Theta) (h1 : 0 < theta.m1) (h2 : 0 < theta.m2) (coeffs : Fin 19 → ℝ) (tf : TransFreqs)
    (_hd : 0 < tf.f_damp) (hf1 : 0 < tf.f1) (hf : tf.f1 < tf.f2) :
    ContDiffOn ℝ 1 (fun f => Phase f theta coeffs tf) (Ioi 0) := by
  have hk : 0 < theta.m1 * gt + theta.m2 * gt := by have := gt_pos; positivity
  set k := theta.m1 * gt + theta.m2 * gt with hkdef
  have hf2 : 0 < tf.f2 := hf1.trans hf
  have cI : ∀ x, 0 < x → ContDiffAt ℝ 1 (fun y => get_inspiral_phase y theta coeffs) x :=
    fun x hx => cd_inspiral_phase theta coeffs hx
  have cA : ∀ (b : ℝ) x, 0 < x → ContDiffAt ℝ 1 (fun y => get_IIa_raw_phase y theta coeffs + b * y) x :=
    fun b x hx => (cd_IIa_raw_phase theta coeffs hx).add (by fun_prop)
  have cB : ∀ x, 0 < x → ContDiffAt ℝ 1 (fun y => get_IIb_raw_phase y theta coeffs tf.f_RD tf.f_damp) x :=
    fun x hx => cd_IIb_raw_phase theta coeffs _ _ hx
  have dA : ∀ b x, 0 < x → deriv (fun y => get_IIa_raw_phase y theta coeffs + b * y) x =
      deriv (fun y => get_IIa_raw_phase y theta coeffs) x + b := by
    intro b x hx
    have hb : HasDerivAt (fun y : ℝ => b * y) b x := by simpa using (hasDerivAt_id x).const_mul b
    have h : HasDerivAt (fun y => get_IIa_raw_phase y theta coeffs + b * y)
        (deriv (fun y => get_IIa_raw_phase y theta coeffs) x + b) x :=
      (((cd_IIa_raw_phase theta coeffs hx).differentiableAt (by norm_num)).hasDerivAt).add hb
    exact h.deriv
  refine contDiffOn_three isOpen_Ioi hf
    (p0 := fun f => get_inspiral_phase (f * k) theta coeffs) ?_ ?_ ?_ ?_ ?_ ?_ ?_
  · exact contDiffOn_comp_mul hk cI
  · exact (contDiffOn_comp_mul hk (cA _)).add contDiffOn_const
  · exact ((contDiffOn_comp_mul hk cB).add contDiffOn_const).add (by fun_prop)
  · simp only; ring
  · rw [(hasDerivAt_comp_mul (cI _ (mul_pos hf1 hk))).deriv,
      ((hasDerivAt_comp_mul (cA _ _ (mul_pos hf1 hk))).add_const _).deriv, dA _ _ (mul_pos hf1 hk)]
    ring
  · simp only; ring
  · rw [((hasDerivAt_comp_mul (cA _ _ (mul_pos hf2 hk))).add_const _).deriv]
    rw [deriv_affine (cB _ (mul_pos hf2 hk))]
    ring

/-- Below the cutoff frequency `0.2/M` the amplitude is one fixed C¹ function of frequency, whatever the grid:
    any positive masses, spins, coefficients (`gamma3 ≠ 0`), transition frequencies with `0 < f3 < f4`. -/
theorem C29_amplitude_C1 (theta : Theta) (h1 : 0 < theta.m1) (h2 : 0 < theta.m2) (coeffs : Fin 19 → ℝ)
    (tf : TransFreqs) (hd : 0 < tf.f_damp) (hg : coeffs 6 ≠ 0) (hf3 : 0 < tf.f3) (hf : tf.f3 < tf.f4) (D : ℝ)
    (_hD : 0 < D) :
    ∃ A : ℝ → ℝ, ContDiffOn ℝ 1 A (Ioi 0) ∧
      ∀ grid : List ℝ, (∀ f ∈ grid, f < 0.2 / ((theta.m1 + theta.m2) * gt)) →
        Amp grid theta coeffs tf D = grid.map A := by
  have hk : 0 < theta.m1 * gt + theta.m2 * gt := by have := gt_pos; positivity
  set k := theta.m1 * gt + theta.m2 * gt with hkdef
  have hf4 : 0 < tf.f4 := hf3.trans hf
  have hw : tf.f_damp * k * coeffs 6 ≠ 0 := mul_ne_zero (mul_pos hd hk).ne' hg
  have cI : ∀ x, 0 < x → ContDiffAt ℝ 1 (fun y => get_inspiral_Amp y theta coeffs) x :=
    fun x hx => cd_inspiral_Amp theta coeffs hx
  have cB : ∀ x, 0 < x → ContDiffAt ℝ 1 (fun y => get_IIb_Amp y theta coeffs tf.f_RD tf.f_damp) x :=
    fun x _ => cd_IIb_Amp theta coeffs _ _ hw x
  have cA : ∀ x, 0 < x → ContDiffAt ℝ 1
      (fun y => get_IIa_Amp y theta coeffs tf.f3 tf.f4 tf.f_RD tf.f_damp) x := by
    intro x _
    unfold get_IIa_Amp
    simp only
    fun_prop
  have n12 : tf.f3 * k ≠ (tf.f3 + tf.f4) / 2 * k := by
    intro h; have := mul_right_cancel₀ hk.ne' h; linarith
  have n13 : tf.f3 * k ≠ tf.f4 * k := by
    intro h; have := mul_right_cancel₀ hk.ne' h; linarith
  have n23 : (tf.f3 + tf.f4) / 2 * k ≠ tf.f4 * k := by
    intro h; have := mul_right_cancel₀ hk.ne' h; linarith
  have quart : ∀ (c0 c1 c2 c3 c4 x : ℝ), deriv (fun y : ℝ => c0 + c1 * y + c2 * y ^ 2 + c3 * y ^ 3 + c4 * y ^ 4) x
      = c1 + 2 * c2 * x + 3 * c3 * x ^ 2 + 4 * c4 * x ^ 3 := by
    intro c0 c1 c2 c3 c4 x
    have h := ((((hasDerivAt_const x c0).add ((hasDerivAt_id x).const_mul c1)).add
      (((hasDerivAt_id x).pow 2).const_mul c2)).add (((hasDerivAt_id x).pow 3).const_mul c3)).add
      (((hasDerivAt_id x).pow 4).const_mul c4)
    have h' := h.deriv
    simp only [id_eq] at h'
    calc _ = _ := h'
      _ = _ := by push_cast; ring
  refine ⟨fun f => get_Amp0 (f * k) (theta.m1 * gt * (theta.m2 * gt) / k ^ 2) * (2 * Real.sqrt (5 / (64 * PI))) *
    (get_inspiral_Amp (f * k) theta coeffs * Jnp.heaviside (tf.f3 - f) 0.5
      + Jnp.heaviside (f - tf.f3) 0.5 * get_IIa_Amp (f * k) theta coeffs tf.f3 tf.f4 tf.f_RD tf.f_damp
        * Jnp.heaviside (tf.f4 - f) 0.5
      + get_IIb_Amp (f * k) theta coeffs tf.f_RD tf.f_damp * Jnp.heaviside (f - tf.f4) 0.5)
    * k ^ 2 / (D * m_per_Mpc / C), ?_, ?_⟩
  · have c0 : ContDiffOn ℝ 1 (fun f => get_Amp0 (f * k) (theta.m1 * gt * (theta.m2 * gt) / k ^ 2)) (Ioi 0) :=
      contDiffOn_comp_mul (g := fun x => get_Amp0 x (theta.m1 * gt * (theta.m2 * gt) / k ^ 2)) hk
        (fun x hx => cd_Amp0 _ hx)
    refine ((((c0.mul contDiffOn_const).mul (contDiffOn_three isOpen_Ioi hf
      (p0 := fun f => get_inspiral_Amp (f * k) theta coeffs)
      (p1 := fun f => get_IIa_Amp (f * k) theta coeffs tf.f3 tf.f4 tf.f_RD tf.f_damp)
      (p2 := fun f => get_IIb_Amp (f * k) theta coeffs tf.f_RD tf.f_damp) ?_ ?_ ?_ ?_ ?_ ?_ ?_)).mul
      contDiffOn_const).div_const _)
    · exact contDiffOn_comp_mul hk cI
    · exact contDiffOn_comp_mul hk cA
    · exact contDiffOn_comp_mul hk cB
    · exact (delta_value1 _ _ _ _ _ n12 n13 n23).symm
    · rw [(hasDerivAt_comp_mul (cI _ (mul_pos hf3 hk))).deriv, (hasDerivAt_comp_mul (cA _ (mul_pos hf3 hk))).deriv]
      congr 1
      exact ((quart _ _ _ _ _ _).trans (delta_slope1 _ _ _ _ _ n12 n13 n23)).symm
    · exact delta_value3 _ _ _ _ _ n12 n13 n23
    · rw [(hasDerivAt_comp_mul (cA _ (mul_pos hf4 hk))).deriv, (hasDerivAt_comp_mul (cB _ (mul_pos hf4 hk))).deriv]
      congr 1
      exact (quart _ _ _ _ _ _).trans (delta_slope3 _ _ _ _ _ n12 n13 n23)
  · intro grid hgrid
    by_cases hne : grid = []
    · subst hne; rfl
    have e : (theta.m1 + theta.m2) * gt = k := by rw [hkdef]; ring
    rw [e] at hgrid
    have hl : fM_CUT / k > Jnp.index grid (-1) := hgrid _ (Jnp.index_last_mem hne)
    unfold Amp
    simp only [← hkdef, if_pos hl]
    refine List.map_congr_left fun f hfm => ?_
    have := hgrid f hfm
    rw [Jnp.heaviside_pos (x := fM_CUT / k - f) (by have : f < fM_CUT / k := this; linarith)]
    ring

/-- witness: an equal-mass binary with suitable transition frequencies -/
example : ∃ (theta : Theta) (tf : TransFreqs) (coeffs : Fin 19 → ℝ), 0 < theta.m1 ∧ 0 < theta.m2 ∧ 0 < tf.f_damp ∧
    0 < tf.f1 ∧ tf.f1 < tf.f2 ∧ 0 < tf.f3 ∧ tf.f3 < tf.f4 ∧ coeffs 6 ≠ 0 :=
  ⟨⟨30, 30, 0.1, -0.2⟩, ⟨60, 100, 50, 200, 210, 20⟩, fun _ => 1, by norm_num, by norm_num, by norm_num, by norm_num,
    by norm_num, by norm_num, by norm_num, by norm_num⟩

end Ripple

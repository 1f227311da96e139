/-
  The frame conversion, the transition frequencies and the twisted-up polarisations of PhenomPv2 as the in-plane spin of the
  heavier body vanishes.
-/
import Verif.Props.Pv2Grad
import Verif.Props.Pv2Phys
import Verif.Proofs.Pv2Aligned

namespace Ripple
open scoped ContDiff Topology
open Set Filter PhenomD Pv2 V3 XAS

namespace Limit

/-! ### Dependence on the precession spin -/

open Classical in
/-- transition frequencies for given ringdown and damping frequency -/
noncomputable def tfE (m1 m2 : ℝ) (s1 s2 : V3) (R D : ℝ) : TransFreqs :=
  let g2 := get_coeffs (thetaP m1 m2 s1 s2) 5
  let g3 := get_coeffs (thetaP m1 m2 s1 s2) 6
  ⟨0.018 / ((m1 + m2) * gt), 0.5 * R, 0.014 / ((m1 + m2) * gt),
    if g2 ≥ 1 then |R + -D * g3 / g2| else |R + D * (-1 + Real.sqrt (1 - g2 ^ 2)) * g3 / g2|, R, D⟩

lemma tfP_tfE (Q : QNM) (m1 m2 : ℝ) (s1 s2 : V3) (chip : ℝ) : tfP Q m1 m2 s1 s2 chip =
    tfE m1 m2 s1 s2 (tfP Q m1 m2 s1 s2 chip).f_RD (tfP Q m1 m2 s1 s2 chip).f_damp := rfl

variable {Q : QNM} {m1 m2 : ℝ} {s1 s2 : V3}

lemma tfE_fam (hq : Q.Shipped) (h2 : 0 < m2) (h : m2 < m1) (l1 : len s1 ≤ 1) (l2 : len s2 ≤ 1) (chip : ℝ) :
    TfFam (fun _ : ℝ × ℝ => thetaP m1 m2 s1 s2) (fun p => tfE m1 m2 s1 s2 p.1 p.2)
      ((tfP Q m1 m2 s1 s2 chip).f_RD, (tfP Q m1 m2 s1 s2 chip).f_damp) := by
  obtain ⟨r1, r12, -, r3, r34, -, -, rd⟩ := C96_regions_ordered s1 s2 Q hq h2 h.le l1 l2 chip
  have ph := thetaP_physical h2 h.le l1 l2
  obtain ⟨-, g2, g3, -⟩ := coeffs_range ph
  refine ⟨⟨contDiffAt_const, contDiffAt_const, contDiffAt_const, contDiffAt_const, ph, h.ne'⟩, contDiffAt_const,
    contDiffAt_const.mul contDiffAt_fst, contDiffAt_const, ?_, contDiffAt_fst, contDiffAt_snd,
    ⟨r3, r34, rd, lt_of_lt_of_le (by norm_num) g2, lt_of_lt_of_le (by norm_num) g3⟩, ⟨r1, r12⟩⟩
  have r4 := (r3.trans r34).ne'
  rw [tfP_tfE] at r4
  generalize (tfP Q m1 m2 s1 s2 chip).f_RD = R at *
  generalize (tfP Q m1 m2 s1 s2 chip).f_damp = D at *
  unfold tfE at r4 ⊢
  dsimp only at r4 ⊢
  generalize get_coeffs (thetaP m1 m2 s1 s2) 5 = g at *
  generalize get_coeffs (thetaP m1 m2 s1 s2) 6 = k at *
  split_ifs at r4 ⊢ with hg
  · exact (contDiffAt_abs (x := R + -D * k / g) (abs_ne_zero.1 r4)).comp (g := fun x : ℝ => |x|)
      (f := fun p : ℝ × ℝ => p.1 + -p.2 * k / g) (R, D) (by fun_prop)
  · exact (contDiffAt_abs (x := R + D * (-1 + Real.sqrt (1 - g ^ 2)) * k / g) (abs_ne_zero.1 r4)).comp (g := fun x : ℝ => |x|)
      (f := fun p : ℝ × ℝ => p.1 + p.2 * (-1 + Real.sqrt (1 - g ^ 2)) * k / g) (R, D) (by fun_prop)

lemma spin_cont (m1 m2 x y : ℝ) : Continuous fun chip => FinalSpin_inplane m1 m2 x y chip := by
  unfold FinalSpin_inplane
  dsimp only
  fun_prop

lemma RD_cont (hq : Q.Shipped) (m1 m2 : ℝ) (s1 s2 : V3) : Continuous fun chip =>
    ((tfP Q m1 m2 s1 s2 chip).f_RD, (tfP Q m1 m2 s1 s2 chip).f_damp) := by
  have i := fun tab => (interp_continuous hq.eps_nonneg hq.good tab).comp (spin_cont m1 m2 s1.2.2 s2.2.2)
  exact (((i Q.fRD).div_const _).div_const _).prodMk (((i Q.fdamp).div_const _).div_const _)

lemma hDs_cont (hq : Q.Shipped) (h2 : 0 < m2) (h : m2 < m1) (l1 : len s1 ≤ 1) (l2 : len s2 ≤ 1) {D thr f : ℝ} (hf : 0 < f)
    (hD : 0 < D) (ht : f < thr) (chip : ℝ) : ContinuousAt (fun c => hDs Q m1 m2 s1 s2 c 0 D thr f) chip := by
  have T := tfE_fam hq h2 h l1 l2 chip
  have A := (T.ampAt_C1 (f := fun _ => f) (D := fun _ => D) (thr := fun _ => thr) contDiffAt_const contDiffAt_const hf hD
    (Eventually.of_forall fun _ => ht)).continuousAt
  have P := (T.Phase_C1 (f := fun _ => f) contDiffAt_const hf).continuousAt
  have rc := (RD_cont hq m1 m2 s1 s2).continuousAt (x := chip)
  have A' := ContinuousAt.comp (f := fun c => ((tfP Q m1 m2 s1 s2 c).f_RD, (tfP Q m1 m2 s1 s2 c).f_damp)) A rc
  have P' := ContinuousAt.comp (f := fun c => ((tfP Q m1 m2 s1 s2 c).f_RD, (tfP Q m1 m2 s1 s2 c).f_damp)) P rc
  unfold hDs
  have c1 := Complex.continuous_ofReal.continuousAt.comp (A'.div_const (2 * Real.sqrt (5 / (64 * PI))))
  have c2 := Complex.continuous_ofReal.continuousAt.comp (P'.sub (continuousAt_const (y := 2 * (0 : ℝ))))
  exact c1.mul (Complex.continuous_exp.continuousAt.comp (continuousAt_const.mul c2))

lemma corr_cont (hq : Q.Shipped) (h2 : 0 < m2) (h : m2 < m1) (l1 : len s1 ≤ 1) (l2 : len s2 ≤ 1) (tc f chip : ℝ) :
    ContinuousAt (fun c => corrP Q m1 m2 s1 s2 c tc f) chip := by
  have T := tfE_fam hq h2 h l1 l2 chip
  obtain ⟨-, -, r2R, -⟩ := C96_regions_ordered s1 s2 Q hq h2 h.le l1 l2 chip
  have d := (smooth_deriv (e0 := ((tfP Q m1 m2 s1 s2 chip).f_RD, (tfP Q m1 m2 s1 s2 chip).f_damp)) (G := fun (p : ℝ × ℝ) f => -Phase f (thetaP m1 m2 s1 s2) (get_coeffs (thetaP m1 m2 s1 s2))
    (tfE m1 m2 s1 s2 p.1 p.2)) (x := fun p : ℝ × ℝ => p.1)
    ((T.fst _).Phase_ringdown (f := fun p => p.2) contDiffAt_snd r2R).neg contDiffAt_fst).continuousAt
  have rc := (RD_cont hq m1 m2 s1 s2).continuousAt (x := chip)
  have t : ContinuousAt (fun c => t0P Q m1 m2 s1 s2 c) chip :=
    (ContinuousAt.comp (f := fun c => ((tfP Q m1 m2 s1 s2 c).f_RD, (tfP Q m1 m2 s1 s2 c).f_damp)) d rc).div_const _
  have hx : ContinuousAt (fun c => 2 * PI * f * t0P Q m1 m2 s1 s2 c) chip := continuousAt_const.mul t
  unfold corrP
  refine ContinuousAt.mul (ContinuousAt.sub ?_ (continuousAt_const.mul ?_)) continuousAt_const
  · exact Complex.continuous_ofReal.continuousAt.comp (Real.continuous_cos.continuousAt.comp hx)
  · exact Complex.continuous_ofReal.continuousAt.comp (Real.continuous_sin.continuousAt.comp hx)

/-! ### The frame -/

/-- complex number `x - iy` of the line of sight in the frame of the total angular momentum, turned back by the azimuth of the
    latter -/
noncomputable def sightZ (J N : V3) : ℂ :=
  Complex.exp (Complex.I * ((-Jnp.arctan2 J.2.1 J.1 : ℝ) : ℂ)) * (((toJ J N).1 : ℂ) - Complex.I * ((toJ J N).2.1 : ℂ))

lemma toJ_z (J : V3) : toJ J (0, 0, 1) =
    (-Real.sin (Real.arccos (J.2.2 / len J)), 0, Real.cos (Real.arccos (J.2.2 / len J))) := by
  simp [toJ, ROTATEY, ROTATEZ]

lemma toJ_N (J N : V3) : toJ J N =
    (Real.cos (Real.arccos (J.2.2 / len J)) * (N.1 * Real.cos (Jnp.arctan2 J.2.1 J.1) + N.2.1 * Real.sin (Jnp.arctan2 J.2.1 J.1))
      - Real.sin (Real.arccos (J.2.2 / len J)) * N.2.2,
     N.2.1 * Real.cos (Jnp.arctan2 J.2.1 J.1) - N.1 * Real.sin (Jnp.arctan2 J.2.1 J.1),
     Real.sin (Real.arccos (J.2.2 / len J)) * (N.1 * Real.cos (Jnp.arctan2 J.2.1 J.1) + N.2.1 * Real.sin (Jnp.arctan2 J.2.1 J.1))
      + Real.cos (Real.arccos (J.2.2 / len J)) * N.2.2) := by
  simp only [toJ, ROTATEY, ROTATEZ, Real.cos_neg, Real.sin_neg, Prod.mk.injEq]
  refine ⟨by ring, by ring, by ring⟩

lemma norm_sightZ (J N : V3) : ‖sightZ J N‖ = Real.sqrt ((toJ J N).1 ^ 2 + (toJ J N).2.1 ^ 2) := by
  unfold sightZ
  rw [norm_mul, mul_comm Complex.I, Complex.norm_exp_ofReal_mul_I, one_mul]
  generalize toJ J N = w
  rw [show (w.1 : ℂ) - Complex.I * (w.2.1 : ℂ) = (⟨w.1, -w.2.1⟩ : ℂ) by
    apply Complex.ext <;> simp, Complex.norm_def, Complex.normSq_mk]
  congr 1
  ring

/-- the two azimuths together -/
lemma azimuths {J N : V3} (h0 : 0 < J.1 ^ 2 + J.2.1 ^ 2) (hn : sightZ J N ≠ 0) :
    Complex.exp (Complex.I * ((-Jnp.arctan2 J.2.1 J.1 : ℝ) : ℂ)) *
      Complex.exp (Complex.I * ((Jnp.arctan2 (toJN J N (0, 0, 1)).2.1 (toJN J N (0, 0, 1)).1 : ℝ) : ℂ)) =
      -(sightZ J N / (‖sightZ J N‖ : ℝ)) := by
  have hr := norm_pos_iff.2 hn
  rw [norm_sightZ] at hr ⊢
  obtain ⟨l0, l1⟩ := len_pos_of_plane h0
  have hs : 0 < Real.sin (Real.arccos (J.2.2 / len J)) := by
    rw [Real.sin_arccos]
    apply Real.sqrt_pos.2
    rw [div_pow, sub_pos, div_lt_one (by positivity)]
    exact l1
  unfold toJN
  rw [toJ_z]
  unfold sightZ
  generalize Real.sin (Real.arccos (J.2.2 / len J)) = S at *
  generalize toJ J N = w at *
  generalize Real.cos (Real.arccos (J.2.2 / len J)) = T
  obtain ⟨r, er⟩ : ∃ r, r = Real.sqrt (w.1 ^ 2 + w.2.1 ^ 2) := ⟨_, rfl⟩
  have c := arctan2_cos w.2.1 w.1
  have s := arctan2_sin w.2.1 w.1
  rw [← er] at c s hr ⊢
  generalize Jnp.arctan2 w.2.1 w.1 = k at *
  simp only [ROTATEZ, Real.cos_neg, Real.sin_neg, zero_mul, sub_zero, add_zero]
  have sc := Real.sin_sq_add_cos_sq k
  have c' := arctan2_cos (-S * -Real.sin k) (-S * Real.cos k)
  have s' := arctan2_sin (-S * -Real.sin k) (-S * Real.cos k)
  rw [show (-S * Real.cos k) ^ 2 + (-S * -Real.sin k) ^ 2 = S ^ 2 by linear_combination S ^ 2 * sc, Real.sqrt_sq hs.le] at c' s'
  generalize Jnp.arctan2 (-S * -Real.sin k) (-S * Real.cos k) = a at *
  have ca : Real.cos a = -Real.cos k := mul_left_cancel₀ hs.ne' (by linarith)
  have sa : Real.sin a = Real.sin k := mul_left_cancel₀ hs.ne' (by linarith)
  rw [cexp_I a, ca, sa, ← c, ← s]
  have hrc : (r : ℂ) ≠ 0 := by exact_mod_cast hr.ne'
  push_cast
  field_simp
  ring

/-- the frame for a total angular momentum close to the orbital one -/
lemma sight_close (J N : V3) : ‖sightZ J N - ((N.1 : ℂ) - Complex.I * (N.2.1 : ℂ))‖ ≤
    |Real.cos (Real.arccos (J.2.2 / len J)) - 1| * (|N.1| + |N.2.1|) + |Real.sin (Real.arccos (J.2.2 / len J))| * |N.2.2| := by
  unfold sightZ
  rw [toJ_N]
  dsimp only
  generalize Real.cos (Real.arccos (J.2.2 / len J)) = T
  generalize Real.sin (Real.arccos (J.2.2 / len J)) = S
  generalize Jnp.arctan2 J.2.1 J.1 = p
  have e : Complex.exp (Complex.I * ((-p : ℝ) : ℂ)) * (((T * (N.1 * Real.cos p + N.2.1 * Real.sin p) - S * N.2.2 : ℝ) : ℂ)
      - Complex.I * ((N.2.1 * Real.cos p - N.1 * Real.sin p : ℝ) : ℂ)) - ((N.1 : ℂ) - Complex.I * (N.2.1 : ℂ)) =
      Complex.exp (Complex.I * ((-p : ℝ) : ℂ)) * (((T - 1) * (N.1 * Real.cos p + N.2.1 * Real.sin p) - S * N.2.2 : ℝ) : ℂ) := by
    rw [cexp_I, Real.cos_neg, Real.sin_neg]
    have sc : ((Real.sin p : ℝ) : ℂ) ^ 2 + ((Real.cos p : ℝ) : ℂ) ^ 2 = 1 := by exact_mod_cast Real.sin_sq_add_cos_sq p
    push_cast at sc ⊢
    linear_combination ((N.1 : ℂ) - Complex.I * N.2.1) * sc + (Complex.sin p * Complex.cos p * N.2.1
      - Complex.sin p ^ 2 * N.1) * Complex.I_sq
  rw [e, norm_mul, mul_comm Complex.I, Complex.norm_exp_ofReal_mul_I, one_mul, Complex.norm_real, Real.norm_eq_abs]
  refine (abs_sub _ _).trans (add_le_add ?_ (abs_mul _ _).le)
  rw [abs_mul]
  refine mul_le_mul_of_nonneg_left ((abs_add_le _ _).trans (add_le_add ?_ ?_)) (abs_nonneg _)
  · rw [abs_mul]; exact mul_le_of_le_one_right (abs_nonneg _) (Real.abs_cos_le_one p)
  · rw [abs_mul]; exact mul_le_of_le_one_right (abs_nonneg _) (Real.abs_sin_le_one p)

variable {chi1 chi2 f_ref phiRef incl : ℝ}

/-- total angular momentum as a function of the in-plane spin of the heavier body -/
lemma J_eq (m1 m2 chi1 chi2 f_ref : ℝ) (p : ℝ × ℝ) : totalJ gt m2 m1 f_ref (0, 0, chi2) (p.1, p.2, chi1) =
    (m1 ^ 2 * p.1, m1 ^ 2 * p.2, (totalJ gt m2 m1 f_ref (0, 0, chi2) (0, 0, chi1)).2.2) := by
  simp [totalJ]

lemma J_plane (h1 : 0 < m1) (p : ℝ × ℝ) (hp : p ≠ (0, 0)) : 0 < (totalJ gt m2 m1 f_ref (0, 0, chi2) (p.1, p.2, chi1)).1 ^ 2 +
    (totalJ gt m2 m1 f_ref (0, 0, chi2) (p.1, p.2, chi1)).2.1 ^ 2 := by
  rw [J_eq]
  dsimp only
  have : p.1 ≠ 0 ∨ p.2 ≠ 0 := by
    by_contra hn
    push Not at hn
    exact hp (Prod.ext hn.1 hn.2)
  rcases this with h | h <;> positivity

lemma J_cont : Continuous fun p : ℝ × ℝ => totalJ gt m2 m1 f_ref (0, 0, chi2) (p.1, p.2, chi1) := by
  simp only [J_eq]
  fun_prop

lemma tilt (hJ : 0 < (totalJ gt m2 m1 f_ref (0, 0, chi2) (0, 0, chi1)).2.2) :
    Tendsto (fun p : ℝ × ℝ => (totalJ gt m2 m1 f_ref (0, 0, chi2) (p.1, p.2, chi1)).2.2 /
      len (totalJ gt m2 m1 f_ref (0, 0, chi2) (p.1, p.2, chi1))) (𝓝 (0, 0)) (𝓝 1) := by
  have hl : len (totalJ gt m2 m1 f_ref (0, 0, chi2) (0, 0, chi1)) = (totalJ gt m2 m1 f_ref (0, 0, chi2) (0, 0, chi1)).2.2 := by
    have := J_eq m1 m2 chi1 chi2 f_ref (0, 0)
    dsimp only at this
    rw [this]
    unfold len V3.dot
    dsimp only
    rw [mul_zero, mul_zero, zero_add, zero_add, Real.sqrt_mul_self hJ.le]
  have k : Continuous fun v : V3 => len v := by
    unfold len V3.dot
    fun_prop
  have t := ((continuous_snd.comp (continuous_snd.comp (J_cont (m1 := m1) (m2 := m2) (f_ref := f_ref) (chi1 := chi1)
    (chi2 := chi2)))).tendsto (0, 0)).div ((k.comp (J_cont (m1 := m1) (m2 := m2) (f_ref := f_ref) (chi1 := chi1)
    (chi2 := chi2))).tendsto (0, 0)) (by dsimp only [Function.comp]; rw [hl]; exact hJ.ne')
  dsimp only [Function.comp] at t
  rw [hl, div_self hJ.ne'] at t
  exact t

lemma cos_tilt (hJ : 0 < (totalJ gt m2 m1 f_ref (0, 0, chi2) (0, 0, chi1)).2.2) :
    Tendsto (fun p : ℝ × ℝ => Real.cos (Real.arccos ((totalJ gt m2 m1 f_ref (0, 0, chi2) (p.1, p.2, chi1)).2.2 /
      len (totalJ gt m2 m1 f_ref (0, 0, chi2) (p.1, p.2, chi1))))) (𝓝 (0, 0)) (𝓝 1) ∧
    Tendsto (fun p : ℝ × ℝ => Real.sin (Real.arccos ((totalJ gt m2 m1 f_ref (0, 0, chi2) (p.1, p.2, chi1)).2.2 /
      len (totalJ gt m2 m1 f_ref (0, 0, chi2) (p.1, p.2, chi1))))) (𝓝 (0, 0)) (𝓝 0) := by
  have t := (Real.continuous_arccos.tendsto 1).comp (tilt hJ)
  rw [Real.arccos_one] at t
  have c := (Real.continuous_cos.tendsto 0).comp t
  have s := (Real.continuous_sin.tendsto 0).comp t
  rw [Real.cos_zero] at c
  rw [Real.sin_zero] at s
  exact ⟨c, s⟩

/-- the line of sight in the limit -/
lemma sight_limit (hJ : 0 < (totalJ gt m2 m1 f_ref (0, 0, chi2) (0, 0, chi1)).2.2) (N : V3) :
    Tendsto (fun p : ℝ × ℝ => sightZ (totalJ gt m2 m1 f_ref (0, 0, chi2) (p.1, p.2, chi1)) N) (𝓝 (0, 0))
      (𝓝 ((N.1 : ℂ) - Complex.I * (N.2.1 : ℂ))) := by
  obtain ⟨c, s⟩ := cos_tilt hJ
  refine tendsto_iff_norm_sub_tendsto_zero.2 (squeeze_zero (fun _ => norm_nonneg _) (fun p => sight_close _ N) ?_)
  have := ((c.sub_const 1).abs.mul_const (|N.1| + |N.2.1|)).add (s.abs.mul_const |N.2.2|)
  simpa using this

/-- As the in-plane spin vanishes, the precession spin and the polarisation angle tend to their aligned values, and so does the
    angle of the line of sight, but the two azimuths together tend to the azimuth of the line of sight. -/
lemma frame_limit (h1 : 0 < m1) (h2 : 0 < m2) (hf : 0 < f_ref)
    (hJ : 0 < (totalJ gt m2 m1 f_ref (0, 0, chi2) (0, 0, chi1)).2.2) (hs : Real.sin incl ≠ 0) :
    let c := fun p : ℝ × ℝ => conv m2 m1 f_ref phiRef incl (0, 0, chi2) (p.1, p.2, chi1)
    let F := 𝓝[≠] ((0 : ℝ), (0 : ℝ))
    Tendsto (fun p => (c p).chip) F (𝓝 0) ∧ Tendsto (fun p => (c p).thetaJN) F (𝓝 (c (0, 0)).thetaJN) ∧
    Tendsto (fun p => (Complex.exp (Complex.I * (((c p).phi_aligned : ℝ) : ℂ)) *
      Complex.exp (Complex.I * (((c p).alpha0 : ℝ) : ℂ))) ^ 2) F (𝓝 (-Complex.exp (2 * Complex.I * (phiRef : ℂ)))) ∧
    Tendsto (fun p => Real.cos (2 * (c p).zeta_polariz)) F (𝓝 (-1)) ∧
    Tendsto (fun p => Real.sin (2 * (c p).zeta_polariz)) F (𝓝 0) := by
  intro c F
  have le : F ≤ 𝓝 (0, 0) := nhdsWithin_le_nhds
  have V := fun p : ℝ × ℝ => convert_eq h2 h1 hf phiRef incl (0, 0, chi2) (p.1, p.2, chi1)
  have Jne : ∀ p : ℝ × ℝ, totalJ gt m2 m1 f_ref (0, 0, chi2) (p.1, p.2, chi1) ≠ 0 := fun p h => by
    have := congrArg (fun v : V3 => v.2.2) h
    rw [J_eq] at this
    exact hJ.ne' this
  refine ⟨?_, ?_, ?_, ?_⟩
  · have : ∀ p : ℝ × ℝ, (c p).chip = max ((4 * m2 + 3 * m1) * m2 / ((4 * m1 + 3 * m2) * m1) * √((0 : ℝ) ^ 2 + 0 ^ 2))
        (√(p.1 ^ 2 + p.2 ^ 2)) := fun p => C57_value f_ref phiRef incl (0, 0, chi2) (p.1, p.2, chi1) h2 h1
    simp only [this]
    have k : Continuous fun p : ℝ × ℝ => max ((4 * m2 + 3 * m1) * m2 / ((4 * m1 + 3 * m2) * m1) * √((0 : ℝ) ^ 2 + 0 ^ 2))
        (√(p.1 ^ 2 + p.2 ^ 2)) := by fun_prop
    have t := (k.tendsto (0, 0)).mono_left le
    simpa using t
  · have a : ∀ p, (c p).thetaJN = Real.arccos (V3.dot (lineOfSight incl phiRef)
        (totalJ gt m2 m1 f_ref (0, 0, chi2) (p.1, p.2, chi1)) / len (totalJ gt m2 m1 f_ref (0, 0, chi2) (p.1, p.2, chi1))) := by
      intro p
      obtain ⟨-, -, t0, t1, -⟩ := C58_frame f_ref phiRef incl (0, 0, chi2) (p.1, p.2, chi1) h2 h1 hf (Jne p)
      rw [← C58_angle f_ref phiRef incl (0, 0, chi2) (p.1, p.2, chi1) h2 h1 hf (Jne p)]
      exact (Real.arccos_cos t0 t1).symm
    have k : Continuous fun v : V3 => len v := by
      unfold len V3.dot
      fun_prop
    have k' : Continuous fun v : V3 => V3.dot (lineOfSight incl phiRef) v := by
      unfold V3.dot
      fun_prop
    have jc := J_cont (m1 := m1) (m2 := m2) (f_ref := f_ref) (chi1 := chi1) (chi2 := chi2)
    have t : Tendsto _ F _ := ((Real.continuous_arccos.tendsto _).comp (((k'.comp jc).tendsto (0, 0)).div
      ((k.comp jc).tendsto (0, 0)) (len_pos (Jne (0, 0))).ne')).mono_left le
    rw [a (0, 0)]
    simp only [a]
    exact t
  · have N0 : ((losN incl phiRef).1 : ℂ) - Complex.I * ((losN incl phiRef).2.1 : ℂ) =
        (Real.sin incl : ℝ) * Complex.exp (Complex.I * ((-(Real.pi / 2 - phiRef) : ℝ) : ℂ)) := by
      rw [cexp_I, Real.cos_neg, Real.sin_neg]
      simp only [losN, dir]
      push_cast
      ring
    have n0 : ((losN incl phiRef).1 : ℂ) - Complex.I * ((losN incl phiRef).2.1 : ℂ) ≠ 0 := by
      rw [N0]
      exact mul_ne_zero (by exact_mod_cast hs) (Complex.exp_ne_zero _)
    have z := (sight_limit (m1 := m1) (m2 := m2) hJ (losN incl phiRef)).mono_left le
    have t := ((z.div ((Complex.continuous_ofReal.tendsto _).comp z.norm)
      (by exact_mod_cast norm_ne_zero_iff.2 n0)).neg).pow 2
    have lim : (-((((losN incl phiRef).1 : ℂ) - Complex.I * ((losN incl phiRef).2.1 : ℂ)) /
        ((‖((losN incl phiRef).1 : ℂ) - Complex.I * ((losN incl phiRef).2.1 : ℂ)‖ : ℝ) : ℂ))) ^ 2 =
        -Complex.exp (2 * Complex.I * (phiRef : ℂ)) := by
      rw [N0, norm_mul, mul_comm Complex.I, Complex.norm_exp_ofReal_mul_I, mul_one, Complex.norm_real, Real.norm_eq_abs,
        neg_sq, div_pow, mul_pow, ← Complex.ofReal_pow |Real.sin incl|, sq_abs, Complex.ofReal_pow,
        mul_div_cancel_left₀ _ (pow_ne_zero 2 (by exact_mod_cast hs)), ← Complex.exp_nat_mul]
      rw [show ((2 : ℕ) : ℂ) * (((-(Real.pi / 2 - phiRef) : ℝ) : ℂ) * Complex.I) =
        2 * Complex.I * (phiRef : ℂ) - Real.pi * Complex.I by push_cast; ring, Complex.exp_sub, Complex.exp_pi_mul_I]
      ring
    rw [lim] at t
    refine t.congr' ?_
    filter_upwards [self_mem_nhdsWithin, z.eventually_ne n0] with p hp hz
    obtain ⟨-, v2, v3, -⟩ := V p
    have : Complex.exp (Complex.I * (((c p).phi_aligned : ℝ) : ℂ)) * Complex.exp (Complex.I * (((c p).alpha0 : ℝ) : ℂ)) =
        -(sightZ (totalJ gt m2 m1 f_ref (0, 0, chi2) (p.1, p.2, chi1)) (losN incl phiRef) /
          (‖sightZ (totalJ gt m2 m1 f_ref (0, 0, chi2) (p.1, p.2, chi1)) (losN incl phiRef)‖ : ℝ)) := by
      rw [show (c p).phi_aligned = _ from v3, show (c p).alpha0 = _ from v2]
      exact azimuths (J_plane h1 p hp) hz
    rw [this]
    rfl
  · have bound : ∀ p, |Real.cos (c p).zeta_polariz| ≤ √(1 - ((totalJ gt m2 m1 f_ref (0, 0, chi2) (p.1, p.2, chi1)).2.2 /
        len (totalJ gt m2 m1 f_ref (0, 0, chi2) (p.1, p.2, chi1))) ^ 2) / |Real.sin incl| := by
      intro p
      obtain ⟨-, -, -, -, -, R, hR, -, hRN, ⟨b, -, -, hb, hz⟩, hRX⟩ :=
        C58_frame f_ref phiRef incl (0, 0, chi2) (p.1, p.2, chi1) h2 h1 hf (Jne p)
      have hX : comb (Real.sin incl) (polarX incl phiRef) (Real.cos incl) (lineOfSight incl phiRef) = (0, 0, 1) := by
        simp only [polarX, comb, lineOfSight, dir, Real.cos_pi_div_two_sub, Real.sin_pi_div_two_sub, Real.sin_add,
          Real.cos_add, Real.cos_pi_div_two, Real.sin_pi_div_two, Prod.mk.injEq]
        refine ⟨by ring, by ring, ?_⟩
        linear_combination Real.sin_sq_add_cos_sq incl
      have hl := hR.linear (Real.sin incl) (polarX incl phiRef) (Real.cos incl) (lineOfSight incl phiRef)
      rw [hX, hz, hRX, hRN] at hl
      have hy := congrArg (fun v : V3 => v.2.1) hl
      simp only [comb, dir, V3.cross, Real.sin_zero] at hy
      have e : Real.sin b * Real.sin (c p).alpha0 = -(Real.sin incl * Real.cos (c p).zeta_polariz) := by
        refine hy.trans ?_
        ring
      rw [le_div_iff₀ (abs_pos.2 hs), ← hb, ← Real.sin_sq]
      rw [Real.sqrt_sq_eq_abs, mul_comm, ← abs_mul, ← abs_neg, ← e, abs_mul]
      exact mul_le_of_le_one_right (abs_nonneg _) (Real.abs_sin_le_one _)
    have z : Tendsto (fun p => Real.cos (c p).zeta_polariz) F (𝓝 0) := by
      refine squeeze_zero_norm bound ?_
      have t := ((Real.continuous_sqrt.tendsto _).comp (((tilt hJ).mono_left le).pow 2 |>.const_sub 1)).div_const |Real.sin incl|
      simpa using t
    refine ⟨?_, ?_⟩
    · have t := ((z.pow 2).const_mul 2).sub_const 1
      simp only [Real.cos_two_mul]
      simpa using t
    · refine squeeze_zero_norm (a := fun p => 2 * |Real.cos (c p).zeta_polariz|) (fun p => ?_) (by simpa using z.abs.const_mul 2)
      rw [Real.sin_two_mul, Real.norm_eq_abs, abs_mul, abs_mul, abs_two]
      refine mul_le_mul_of_nonneg_right ?_ (abs_nonneg _)
      linarith [Real.abs_sin_le_one (c p).zeta_polariz]

/-! ### The twisted-up polarisations -/

lemma quad_limit {ι : Type} {F : Filter ι} {w V ep v : ι → ℂ} {x y : ι → ℝ} {w0 V2 : ℂ} {x0 : ℝ} (hw : Tendsto w F (𝓝 w0))
    (nw : ∀ i, ‖w i‖ = 1) (nV : ∀ i, ‖V i‖ = 1) (ne : ∀ i, ‖ep i‖ = 1) (nv : ∀ i, ‖v i‖ = 1)
    (hV : Tendsto (fun i => V i ^ 2) F (𝓝 V2)) (hx : Tendsto x F (𝓝 x0)) (hy : Tendsto y F (𝓝 0)) :
    Tendsto (fun i => (w i * V i * (x i : ℂ) ^ 2 + ep i * (-(2 * (x i : ℂ) * (y i : ℂ)) + v i * (y i : ℂ) ^ 2)) ^ 2) F
      (𝓝 (w0 ^ 2 * V2 * (x0 : ℂ) ^ 4)) := by
  have hxc := (Complex.continuous_ofReal.tendsto _).comp hx
  obtain ⟨r, er⟩ : ∃ r : ι → ℂ, ∀ i, r i = ep i * (-(2 * (x i : ℂ) * (y i : ℂ)) + v i * (y i : ℂ) ^ 2) := ⟨_, fun _ => rfl⟩
  have hr : Tendsto r F (𝓝 0) := by
    refine squeeze_zero_norm (a := fun i => 2 * |x i| * |y i| + |y i| ^ 2) (fun i => ?_) ?_
    · rw [er, norm_mul, ne, one_mul]
      refine (norm_add_le _ _).trans (add_le_add ?_ ?_)
      · simp
      · rw [norm_mul, nv, one_mul, norm_pow, Complex.norm_real, Real.norm_eq_abs]
    · have := ((hx.abs.const_mul 2).mul hy.abs).add (hy.abs.pow 2)
      simpa using this
  have hc : Tendsto (fun i => 2 * (w i * V i * (x i : ℂ) ^ 2) * r i) F (𝓝 0) := by
    refine squeeze_zero_norm (a := fun i => 2 * |x i| ^ 2 * ‖r i‖) (fun i => ?_) ?_
    · rw [norm_mul, norm_mul, norm_mul, norm_mul, nw, nV, norm_pow, Complex.norm_real, Real.norm_eq_abs]
      simp
    · have := ((hx.abs.pow 2).const_mul 2).mul hr.norm
      simpa using this
  have t := ((((hw.pow 2).mul hV).mul (hxc.pow 4)).add hc).add (hr.pow 2)
  have e : w0 ^ 2 * V2 * (x0 : ℂ) ^ 4 + 0 + 0 ^ 2 = w0 ^ 2 * V2 * (x0 : ℂ) ^ 4 := by ring
  rw [e] at t
  refine t.congr fun i => ?_
  rw [← er]
  simp only [Function.comp]
  ring

lemma len_z {x : ℝ} (hx : |x| ≤ 1) : len (0, 0, x) ≤ 1 := by
  unfold len V3.dot
  dsimp only
  rw [mul_zero, zero_add, zero_add, Real.sqrt_mul_self_eq_abs]
  exact hx

lemma turn (A a p : ℝ) {u : ℂ} (hu : u = Complex.exp (Complex.I * ((A + a : ℝ) : ℂ) / 2)) (x y : ℂ) :
    Complex.exp (2 * Complex.I * (p : ℂ)) * (x * u - y * u⁻¹) ^ 4 =
    (Complex.exp (Complex.I * (A : ℂ)) * (Complex.exp (Complex.I * (p : ℂ)) * Complex.exp (Complex.I * (a : ℂ))) * x ^ 2 +
      Complex.exp (Complex.I * (p : ℂ)) * (-(2 * x * y) + Complex.exp (-(Complex.I * ((A + a : ℝ) : ℂ))) * y ^ 2)) ^ 2 := by
  have u0 : u ≠ 0 := by rw [hu]; exact Complex.exp_ne_zero _
  have u2 : u ^ 2 = Complex.exp (Complex.I * (A : ℂ)) * Complex.exp (Complex.I * (a : ℂ)) := by
    rw [hu, ← Complex.exp_nat_mul, ← Complex.exp_add]
    congr 1
    push_cast
    ring
  have um : Complex.exp (-(Complex.I * ((A + a : ℝ) : ℂ))) = (u ^ 2)⁻¹ := by
    rw [hu, ← Complex.exp_nat_mul, ← Complex.exp_neg]
    congr 1
    push_cast
    ring
  have p2 : Complex.exp (2 * Complex.I * (p : ℂ)) = Complex.exp (Complex.I * (p : ℂ)) ^ 2 := by
    rw [← Complex.exp_nat_mul]
    congr 1
    push_cast
    ring
  rw [um, p2, show Complex.exp (Complex.I * (A : ℂ)) * (Complex.exp (Complex.I * (p : ℂ)) * Complex.exp (Complex.I * (a : ℂ))) =
    Complex.exp (Complex.I * (p : ℂ)) * u ^ 2 by rw [u2]; ring]
  generalize Complex.exp (Complex.I * (p : ℂ)) = e
  field_simp
  ring

lemma norm_cis (x : ℝ) : ‖Complex.exp (Complex.I * (x : ℂ))‖ = 1 := by
  rw [mul_comm, Complex.norm_exp_ofReal_mul_I]

lemma hDs_split (Q : QNM) (m1 m2 : ℝ) (s1 s2 : V3) (chip p D thr f : ℝ) : hDs Q m1 m2 s1 s2 chip p D thr f =
    hDs Q m1 m2 s1 s2 chip 0 D thr f * Complex.exp (2 * Complex.I * (p : ℂ)) := by
  unfold hDs
  rw [mul_assoc, ← Complex.exp_add]
  congr 2
  push_cast
  ring

/-- As the in-plane spin vanishes, the twisted-up polarisations tend to the aligned ones turned by twice the reference phase,
    and with the opposite sign. -/
lemma tw_limit (hq : Q.Shipped) (h2 : 0 < m2) (h : m2 < m1) (z1 : |chi1| ≤ 1) (z2 : |chi2| ≤ 1) (hr : 0 < f_ref)
    (hJ : 0 < (totalJ gt m2 m1 f_ref (0, 0, chi2) (0, 0, chi1)).2.2) (hs : Real.sin incl ≠ 0) {D tc thr f : ℝ} (hD : 0 < D)
    (hf : 0 < f) (ht : f < thr) (hL : LplusS m1 m2 (0, 0, chi1) (0, 0, chi2) f ≠ 0) :
    let tw := fun p : ℝ × ℝ => twP Q m1 m2 (p.1, p.2, chi1) (0, 0, chi2) D tc f_ref
      (conv m2 m1 f_ref phiRef incl (0, 0, chi2) (p.1, p.2, chi1)) thr f
    Tendsto (fun p => (tw p).1) (𝓝[≠] (0, 0)) (𝓝 (-Complex.exp (2 * Complex.I * (phiRef : ℂ)) * (tw (0, 0)).1)) ∧
    Tendsto (fun p => (tw p).2) (𝓝[≠] (0, 0)) (𝓝 (-Complex.exp (2 * Complex.I * (phiRef : ℂ)) * (tw (0, 0)).2)) := by
  intro tw
  have h1 := h2.trans h
  obtain ⟨C, eC⟩ : ∃ C : ℝ × ℝ → Converted, ∀ p, conv m2 m1 f_ref phiRef incl (0, 0, chi2) (p.1, p.2, chi1) = C p :=
    ⟨_, fun _ => rfl⟩
  obtain ⟨lc, lt, lV, -, -⟩ := frame_limit (phiRef := phiRef) h1 h2 hr hJ hs
  obtain ⟨c0, a0, p0, -, -⟩ := aligned_frame h2 h1 hr phiRef incl chi2 chi1 hJ.ne'
  have eC0 := eC (0, 0)
  dsimp only at eC0
  simp only [eC] at lc lt lV
  rw [eC0] at c0 a0 p0 lt
  -- the parts that depend on the precession spin only
  obtain ⟨H, eH⟩ : ∃ H : ℝ → ℂ, ∀ k, hDs Q m1 m2 (0, 0, chi1) (0, 0, chi2) k 0 D thr f = H k := ⟨_, fun _ => rfl⟩
  obtain ⟨K, eK⟩ : ∃ K : ℝ → ℂ, ∀ k, corrP Q m1 m2 (0, 0, chi1) (0, 0, chi2) k tc f = K k := ⟨_, fun _ => rfl⟩
  have B : PBase (fun _ : ℝ => m1) (fun _ => m2) (fun _ => (0, 0, chi1)) (fun _ => (0, 0, chi2)) (fun k => k) 0 :=
    ⟨contDiffAt_const, contDiffAt_const, contDiffAt_const, contDiffAt_const, contDiffAt_id, h2, h, len_z z1, len_z z2⟩
  obtain ⟨A, eA⟩ : ∃ A : ℝ → ℝ, ∀ k, alphaS (angP m1 m2 (0, 0, chi1) (0, 0, chi2) k) (Real.pi * ((m1 + m2) * gt) * f)
    - alphaS (angP m1 m2 (0, 0, chi1) (0, 0, chi2) k) (Real.pi * ((m1 + m2) * gt) * f_ref) = A k := ⟨_, fun _ => rfl⟩
  obtain ⟨G, eG⟩ : ∃ G : ℝ → ℝ, ∀ k, epsS (angP m1 m2 (0, 0, chi1) (0, 0, chi2) k) (Real.pi * ((m1 + m2) * gt) * f)
    - epsS (angP m1 m2 (0, 0, chi1) (0, 0, chi2) k) (Real.pi * ((m1 + m2) * gt) * f_ref) = G k := ⟨_, fun _ => rfl⟩
  obtain ⟨b, eb⟩ : ∃ b : ℝ → ℝ, ∀ k, coneAngle m1 m2 (0, 0, chi1) (0, 0, chi2) k f = b k := ⟨_, fun _ => rfl⟩
  have kH := hDs_cont hq h2 h (len_z z1) (len_z z2) hf hD ht 0
  have kK := corr_cont hq h2 h (len_z z1) (len_z z2) tc f 0
  have kA := ((B.alpha_fam (f := fun _ => f) contDiffAt_const hf).sub
    (B.alpha_fam (f := fun _ => f_ref) contDiffAt_const hr)).continuousAt
  have kG := ((B.eps_fam (f := fun _ => f) contDiffAt_const hf).sub
    (B.eps_fam (f := fun _ => f_ref) contDiffAt_const hr)).continuousAt
  have kb : Continuous b := by
    rw [← funext eb]
    unfold coneAngle
    fun_prop
  have b0 : b 0 = 0 := by
    rw [← eb]
    simp [coneAngle]
  simp only [eH] at kH
  simp only [eK] at kK
  replace kA : ContinuousAt A 0 := by rw [← funext eA]; exact kA
  replace kG : ContinuousAt G 0 := by rw [← funext eG]; exact kG
  have form : ∀ p, tw p =
      (Complex.exp (-(2 * Complex.I) * ((G (C p).chip : ℝ) : ℂ)) * H (C p).chip / 2 * ((Real.sqrt (5 / (4 * Real.pi)) : ℝ) : ℂ)
        * ((Complex.exp (2 * Complex.I * (((C p).phi_aligned : ℝ) : ℂ)) * (((Real.cos (b (C p).chip / 2) * Real.sin ((C p).thetaJN / 2) : ℝ) : ℂ) * Complex.exp (Complex.I * ((A (C p).chip + (C p).alpha0 : ℝ) : ℂ) / 2)
          - ((Real.sin (b (C p).chip / 2) * Real.cos ((C p).thetaJN / 2) : ℝ) : ℂ) * (Complex.exp (Complex.I * ((A (C p).chip + (C p).alpha0 : ℝ) : ℂ) / 2))⁻¹) ^ 4)
        + (Complex.exp (2 * Complex.I * (((C p).phi_aligned : ℝ) : ℂ)) * (((Real.cos (b (C p).chip / 2) * Real.cos ((C p).thetaJN / 2) : ℝ) : ℂ) * Complex.exp (Complex.I * ((A (C p).chip + (C p).alpha0 : ℝ) : ℂ) / 2)
          - ((-(Real.sin (b (C p).chip / 2) * Real.sin ((C p).thetaJN / 2)) : ℝ) : ℂ) * (Complex.exp (Complex.I * ((A (C p).chip + (C p).alpha0 : ℝ) : ℂ) / 2))⁻¹) ^ 4)) * K (C p).chip,
      Complex.exp (-(2 * Complex.I) * ((G (C p).chip : ℝ) : ℂ)) * H (C p).chip / 2 * ((Real.sqrt (5 / (4 * Real.pi)) : ℝ) : ℂ)
        * (Complex.I * ((Complex.exp (2 * Complex.I * (((C p).phi_aligned : ℝ) : ℂ)) * (((Real.cos (b (C p).chip / 2) * Real.sin ((C p).thetaJN / 2) : ℝ) : ℂ) * Complex.exp (Complex.I * ((A (C p).chip + (C p).alpha0 : ℝ) : ℂ) / 2)
          - ((Real.sin (b (C p).chip / 2) * Real.cos ((C p).thetaJN / 2) : ℝ) : ℂ) * (Complex.exp (Complex.I * ((A (C p).chip + (C p).alpha0 : ℝ) : ℂ) / 2))⁻¹) ^ 4)
        - (Complex.exp (2 * Complex.I * (((C p).phi_aligned : ℝ) : ℂ)) * (((Real.cos (b (C p).chip / 2) * Real.cos ((C p).thetaJN / 2) : ℝ) : ℂ) * Complex.exp (Complex.I * ((A (C p).chip + (C p).alpha0 : ℝ) : ℂ) / 2)
          - ((-(Real.sin (b (C p).chip / 2) * Real.sin ((C p).thetaJN / 2)) : ℝ) : ℂ) * (Complex.exp (Complex.I * ((A (C p).chip + (C p).alpha0 : ℝ) : ℂ) / 2))⁻¹) ^ 4))) * K (C p).chip) := by
    intro p
    have e := twP_formula Q (p.1, p.2, chi1) (0, 0, chi2) D tc f_ref (C p) thr f h2 h.le hf hL
    have x1 : ∀ k, coneAngle m1 m2 (p.1, p.2, chi1) (0, 0, chi2) k f = b k := eb
    have x2 : azimuth m1 m2 (p.1, p.2, chi1) (0, 0, chi2) (C p) f_ref f = A (C p).chip + (C p).alpha0 := by
      rw [← eA]
      rfl
    have x3 : ∀ k, epsS (angP m1 m2 (p.1, p.2, chi1) (0, 0, chi2) k) (Real.pi * ((m1 + m2) * gt) * f)
      - epsS (angP m1 m2 (p.1, p.2, chi1) (0, 0, chi2) k) (Real.pi * ((m1 + m2) * gt) * f_ref) = G k := eG
    have x4 : ∀ k, hDs Q m1 m2 (p.1, p.2, chi1) (0, 0, chi2) k 0 D thr f = H k := eH
    have x5 : ∀ k, corrP Q m1 m2 (p.1, p.2, chi1) (0, 0, chi2) k tc f = K k := eK
    dsimp only at e
    rw [hDs_split, x1, x2, x3, x4, x5] at e
    simp only [tw, eC]
    rw [e]
    generalize Complex.exp (Complex.I * ((A (C p).chip + (C p).alpha0 : ℝ) : ℂ) / 2) = u
    simp only [Prod.mk.injEq]
    push_cast
    constructor <;> ring
  have kt : ∀ g : ℝ → ℝ, Continuous g → Tendsto (fun p => g ((C p).thetaJN / 2)) (𝓝[≠] (0, 0)) (𝓝 (g ((C (0, 0)).thetaJN / 2))) :=
    fun g hg => (hg.tendsto _).comp (lt.div_const 2)
  have kbp := (kb.tendsto 0).comp lc
  rw [b0] at kbp
  have cb := (Real.continuous_cos.tendsto _).comp (kbp.div_const 2)
  have sb := (Real.continuous_sin.tendsto _).comp (kbp.div_const 2)
  rw [zero_div, Real.cos_zero] at cb
  rw [zero_div, Real.sin_zero] at sb
  have kw := (Complex.continuous_exp.tendsto _).comp (((Complex.continuous_ofReal.tendsto _).comp
    (kA.tendsto.comp lc)).const_mul Complex.I)
  have ke := (Complex.continuous_exp.tendsto _).comp (((Complex.continuous_ofReal.tendsto _).comp
    (kG.tendsto.comp lc)).const_mul (-(2 * Complex.I)))
  have kHp := kH.tendsto.comp lc
  have kKp := kK.tendsto.comp lc
  have T := quad_limit kw (fun _ => norm_cis _) (fun p => by rw [norm_mul, norm_cis, norm_cis, one_mul])
    (ep := fun p => Complex.exp (Complex.I * (((C p).phi_aligned : ℝ) : ℂ))) (fun _ => norm_cis _)
    (v := fun p => Complex.exp (-(Complex.I * ((A (C p).chip + (C p).alpha0 : ℝ) : ℂ))))
    (fun p => by rw [Complex.exp_neg, norm_inv, norm_cis, inv_one]) lV
    (cb.mul (kt Real.sin Real.continuous_sin)) (y := fun p => Real.sin (b (C p).chip / 2) * Real.cos ((C p).thetaJN / 2))
    (by simpa using sb.mul (kt Real.cos Real.continuous_cos))
  have T' := quad_limit kw (fun _ => norm_cis _) (fun p => by rw [norm_mul, norm_cis, norm_cis, one_mul])
    (ep := fun p => Complex.exp (Complex.I * (((C p).phi_aligned : ℝ) : ℂ))) (fun _ => norm_cis _)
    (v := fun p => Complex.exp (-(Complex.I * ((A (C p).chip + (C p).alpha0 : ℝ) : ℂ))))
    (fun p => by rw [Complex.exp_neg, norm_inv, norm_cis, inv_one]) lV
    (cb.mul (kt Real.cos Real.continuous_cos)) (y := fun p => -(Real.sin (b (C p).chip / 2) * Real.sin ((C p).thetaJN / 2)))
    (by simpa using (sb.mul (kt Real.sin Real.continuous_sin)).neg)
  have r := fun p => turn (A (C p).chip) (C p).alpha0 (C p).phi_aligned rfl
    ((Real.cos (b (C p).chip / 2) * Real.sin ((C p).thetaJN / 2) : ℝ) : ℂ)
    ((Real.sin (b (C p).chip / 2) * Real.cos ((C p).thetaJN / 2) : ℝ) : ℂ)
  have r' := fun p => turn (A (C p).chip) (C p).alpha0 (C p).phi_aligned rfl
    ((Real.cos (b (C p).chip / 2) * Real.cos ((C p).thetaJN / 2) : ℝ) : ℂ)
    ((-(Real.sin (b (C p).chip / 2) * Real.sin ((C p).thetaJN / 2)) : ℝ) : ℂ)
  have L1 := (((((ke.mul kHp).div_const 2).mul_const ((Real.sqrt (5 / (4 * Real.pi)) : ℝ) : ℂ)).mul (T.add T')).mul kKp)
  have L2 := (((((ke.mul kHp).div_const 2).mul_const ((Real.sqrt (5 / (4 * Real.pi)) : ℝ) : ℂ)).mul
    ((T.sub T').const_mul Complex.I)).mul kKp)
  have w2 : Complex.exp (Complex.I * ((A 0 : ℝ) : ℂ) / 2) ^ 4 = Complex.exp (Complex.I * ((A 0 : ℝ) : ℂ)) ^ 2 := by
    rw [← Complex.exp_nat_mul, ← Complex.exp_nat_mul]
    congr 1
    push_cast
    ring
  constructor
  · refine (L1.congr fun p => ?_).trans (le_of_eq ?_)
    · rw [form p]
      dsimp only [Function.comp]
      rw [r p, r' p]
    · congr 1
      rw [form (0, 0), c0, a0, p0, b0]
      norm_num
      simp only [mul_pow, w2]
      ring
  · refine (L2.congr fun p => ?_).trans (le_of_eq ?_)
    · rw [form p]
      dsimp only [Function.comp]
      rw [r p, r' p]
    · congr 1
      rw [form (0, 0), c0, a0, p0, b0]
      norm_num
      simp only [mul_pow, w2]
      ring

end Limit
end Ripple

/-
  C108: what `jax.grad` returns for PhenomPv2.
-/
import Verif.Proofs.AutodiffPv2

namespace Ripple
open AD Pv2 Classical

/-- `convert_spins` as a function of its eleven arguments: masses, reference frequency, reference phase, inclination, both spin
    vectors -/
noncomputable def spinsOf (v : Fin 11 → ℝ) : Converted :=
  convert_spins (v 0) (v 1) (v 2) (v 3) (v 4) (v 5) (v 6) (v 7) (v 8) (v 9) (v 10)

/-- the total angular momentum at the reference frequency -/
noncomputable def jOf (v : Fin 11 → ℝ) : V3 := totalJ gt (v 0) (v 1) (v 2) (v 5, v 6, v 7) (v 8, v 9, v 10)

/-- the variables that hold `chip`, `thetaJN`, `alpha0`, `phi_aligned` and `zeta_polariz` -/
def outVar : Fin 5 → ℕ := ![41, 199, 165, 93, 257]

/-- the five values that `convert_spins` computes (the aligned spins are passed through) -/
noncomputable def outVal (c : Converted) : Fin 5 → ℝ := ![c.chip, c.thetaJN, c.alpha0, c.phi_aligned, c.zeta_polariz]

lemma runR_outputs (v : Fin 11 → ℝ) (k : Fin 5) : runR (argsR v) convertProg (outVar k) = outVal (spinsOf v) k := by
  obtain ⟨a, b, c, d, e⟩ := convert_runR (argsR v)
  fin_cases k
  · exact a
  · exact b
  · exact c
  · exact d
  · exact e

lemma jz_pos {s1 s2 : V3} (h1 : 0 ≤ s1.2.2) (h2 : 0 ≤ s2.2.2) : 0 < (totalJ gt 20 30 20 s1 s2).2.2 := by
  unfold totalJ orbitalL
  have g := gt_pos
  have hv : 0 < (Real.pi * ((20 + 30) * gt) * 20) ^ ((1 : ℝ) / 3) := by
    have := Real.pi_pos
    positivity
  generalize (Real.pi * ((20 + 30) * gt) * 20) ^ ((1 : ℝ) / 3) = x at hv ⊢
  norm_num
  positivity

lemma vJ_eq (v : Fin 11 → ℝ) (h0 : 0 < v 0) (h1 : 0 < v 1) (h2 : 0 < v 2) : vJ (argsR v) = jOf v :=
  (totalJ_code h0 h1 h2 (v 5, v 6, v 7) (v 8, v 9, v 10)).symm

/-- the gradients of the effective precession spin and of the four angles in all eleven arguments are right when both bodies
    have in-plane spin, their contributions to the precession spin differ, and no azimuth is on the cut of `arctan2` -/
theorem C108_generic (v : Fin 11 → ℝ) (h : Generic (argsR v)) (i : Fin 11) (k : Fin 5) :
    run (args v) convertProg (outVar k) = .fin (outVal (spinsOf v) k) ∧
    ∃ g : ℝ, grad convertProg (args v) (outVar k) i = .fin g ∧
      HasDerivAt (fun t => outVal (spinsOf (Function.update v i t)) k) g (v i) := by
  have reg := convert_regular h
  rw [args_eq]
  refine ⟨by rw [run_fin _ reg, ← runR_outputs], ?_⟩
  obtain ⟨g, a, b⟩ := grad_correct reg (outVar k) i
  refine ⟨g, a, ?_⟩
  simp only [argsR_update, runR_outputs, argsR_self] at b
  exact b

example : ∃ v : Fin 11 → ℝ, Generic (argsR v) := by
  refine ⟨![20, 30, 20, 0, Real.pi / 2, 0.3, 0, 0, 0.2, 0, 0], ?_⟩
  set v : Fin 11 → ℝ := ![20, 30, 20, 0, Real.pi / 2, 0.3, 0, 0, 0.2, 0, 0] with hv
  have v0 : argsR v 0 = 20 := rfl
  have v1 : argsR v 1 = 30 := rfl
  have v2 : argsR v 2 = 20 := rfl
  have v3 : argsR v 3 = 0 := rfl
  have v4 : argsR v 4 = Real.pi / 2 := rfl
  have v5 : argsR v 5 = 0.3 := rfl
  have v6 : argsR v 6 = 0 := rfl
  have v8 : argsR v 8 = 0.2 := rfl
  have v9 : argsR v 9 = 0 := rfl
  have jz : 0 < (vJ (argsR v)).2.2 := by
    rw [vJ_eq v (by show (0 : ℝ) < 20; norm_num) (by show (0 : ℝ) < 30; norm_num) (by show (0 : ℝ) < 20; norm_num)]
    exact jz_pos (s1 := (0.3, 0, 0)) (s2 := (0.2, 0, 0)) le_rfl le_rfl
  have jx : (vJ (argsR v)).1 = 300 := by
    show argsR v 0 * argsR v 0 * argsR v 5 + argsR v 1 * argsR v 1 * argsR v 8 = 300
    rw [v0, v1, v5, v8]; norm_num
  have jy : (vJ (argsR v)).2.1 = 0 := by
    show argsR v 0 * argsR v 0 * argsR v 6 + argsR v 1 * argsR v 1 * argsR v 9 = 0
    rw [v6, v9]; norm_num
  have hN : vN (argsR v) = (0, 1, 0) := by
    unfold vN losN V3.dir
    rw [v3, v4]; simp
  have hX : vX (argsR v) = (0, 0, 1) := by
    unfold vX
    rw [v3, v4]; simp
  have ph : Jnp.arctan2 (vJ (argsR v)).2.1 (vJ (argsR v)).1 = 0 := by
    rw [jx, jy]
    exact Complex.arg_ofReal_of_nonneg (by norm_num : (0 : ℝ) ≤ 300)
  obtain ⟨θ, hθ, c, sn⟩ : ∃ θ, Real.arccos ((vJ (argsR v)).2.2 / V3.len (vJ (argsR v))) = θ ∧ 0 < Real.cos θ ∧ 0 < Real.sin θ := by
    have hl : V3.len (vJ (argsR v)) ^ 2 = 300 ^ 2 + (vJ (argsR v)).2.2 ^ 2 := by
      rw [len_sq, jx, jy]; ring
    have hp : 0 < V3.len (vJ (argsR v)) := len_pos fun e => by rw [e] at jz; exact lt_irrefl _ jz
    have hr : 0 < (vJ (argsR v)).2.2 / V3.len (vJ (argsR v)) := div_pos jz hp
    have hr' : (vJ (argsR v)).2.2 / V3.len (vJ (argsR v)) < 1 := by
      rw [div_lt_one hp]
      nlinarith
    refine ⟨_, rfl, ?_, ?_⟩
    · rw [Real.cos_arccos (by linarith) hr'.le]; exact hr
    · rw [Real.sin_arccos]
      exact Real.sqrt_pos.2 (by nlinarith)
  have T : ∀ u, toJ (vJ (argsR v)) u = (u.1 * Real.cos θ - u.2.2 * Real.sin θ, u.2.1, u.1 * Real.sin θ + u.2.2 * Real.cos θ) := by
    intro u
    unfold toJ
    rw [ph, hθ]
    simp [ROTATEY, ROTATEZ]
    ring_nf
  have tN : toJ (vJ (argsR v)) (vN (argsR v)) = (0, 1, 0) := by rw [T, hN]; simp
  have ka : Jnp.arctan2 1 0 = Real.pi / 2 := Complex.arg_I
  have R : ∀ u, toJN (vJ (argsR v)) (vN (argsR v)) u =
      (u.2.1, -(u.1 * Real.cos θ - u.2.2 * Real.sin θ), u.1 * Real.sin θ + u.2.2 * Real.cos θ) := by
    intro u
    unfold toJN
    rw [tN, T, ka]
    simp [ROTATEZ]
  constructor
  · rw [v0]; norm_num
  · rw [v1]; norm_num
  · rw [v2]; norm_num
  · rw [v5, v6]; norm_num
  · rw [v8, v9]; norm_num
  · rw [v0, v1, v5, v6, v8, v9]
    have a : Real.sqrt (0.3 ^ 2 + 0 ^ 2) = 0.3 := by rw [show (0.3 : ℝ) ^ 2 + 0 ^ 2 = 0.3 ^ 2 by norm_num, Real.sqrt_sq (by norm_num)]
    have b : Real.sqrt (0.2 ^ 2 + 0 ^ 2) = 0.2 := by rw [show (0.2 : ℝ) ^ 2 + 0 ^ 2 = 0.2 ^ 2 by norm_num, Real.sqrt_sq (by norm_num)]
    rw [a, b]; norm_num
  · left; rw [jx]; norm_num
  · right; rw [tN]; norm_num
  · right; rw [R]; simpa using sn.ne'
  · rw [hN] at R
    simp only [hX, hN, R]
    right
    simpa using c.ne'

/-- for aligned spins the gradients in all eleven arguments of everything that is computed from `alpha0` are nan, as long as
    the total angular momentum points along the orbital one -/
theorem C108_aligned_nan (v : Fin 11 → ℝ) (h0 : 0 < v 0) (h1 : 0 < v 1) (h2 : 0 < v 2) (p5 : v 5 = 0) (p6 : v 6 = 0)
    (p8 : v 8 = 0) (p9 : v 9 = 0) (hz : 0 < (jOf v).2.2) (i : Fin 11) (ct : Cot) (hl : ct 165 ≠ none) :
    back (args v) convertProg ct i = some .nan ∧ grad convertProg (args v) 165 i = .nan := by
  have k := fun {ct : Cot} => aligned_nan (ρ := argsR v) (ct := ct) h0 h1 h2 p5 p6 p8 p9 (by rw [vJ_eq v h0 h1 h2]; exact hz)
  rw [args_eq]
  refine ⟨k hl i (by omega), ?_⟩
  unfold grad
  rw [k (by simp [Live, unit]) i (by omega)]; rfl

/-- the values of `convert_spins` for aligned spins, with the total angular momentum along the orbital one, depend on the
    reference phase and the inclination only -/
lemma aligned_val : ∃ F : ℝ → ℝ → Fin 5 → ℝ, ∀ v : Fin 11 → ℝ, 0 < v 0 → 0 < v 1 → 0 < v 2 → v 5 = 0 → v 6 = 0 → v 8 = 0 → v 9 = 0 →
    0 < (jOf v).2.2 → outVal (spinsOf v) = F (v 3) (v 4) := by
  refine ⟨fun phi incl => 
    let N := losN incl phi
    let R := toJN (0, 0, 1) N
    let X : V3 := (-Real.cos incl * Real.sin phi, -Real.cos incl * Real.cos phi, Real.sin incl)
    ![0, Real.arccos (R N).2.2, Jnp.arctan2 (R (0, 0, 1)).2.1 (R (0, 0, 1)).1, -Jnp.arctan2 0 0,
      Jnp.arctan2 ((R X).1 * (R N).2.2 + (R X).2.1 * 0 + (R X).2.2 * -(R N).1)
        ((R X).1 * 0 + (R X).2.1 * -1 + (R X).2.2 * 0)], ?_⟩
  intro v h0 h1 h2 p5 p6 p8 p9 hz
  have hz' : 0 < (vJ (argsR v)).2.2 := by rw [vJ_eq v h0 h1 h2]; exact hz
  obtain ⟨ht, hp, j1, j2⟩ := aligned_J (ρ := argsR v) p5 p6 p8 p9 hz'
  have hT : toJ (vJ (argsR v)) = toJ (0, 0, 1) := by
    ext1 u
    show ROTATEY (-vTh (argsR v)) (ROTATEZ (-vPh (argsR v)) u) = _
    have e1 : Real.arccos (1 / V3.len (0, 0, 1)) = 0 := by
      unfold V3.len V3.dot
      simp
    show _ = ROTATEY (-Real.arccos (1 / V3.len (0, 0, 1))) (ROTATEZ (-Jnp.arctan2 0 0) u)
    rw [ht, hp, e1, arctan2_zero]
  have hR : toJN (vJ (argsR v)) (losN (v 4) (v 3)) = toJN (0, 0, 1) (losN (v 4) (v 3)) := by
    ext1 u
    unfold toJN
    rw [hT]
  have hc : (spinsOf v).chip = 0 := by
    unfold spinsOf convert_spins
    simp only [p5, p6, p8, p9]
    simp
  obtain ⟨-, c2, c3, c4, c5⟩ := convert_runR (argsR v)
  ext k
  fin_cases k
  · exact hc
  · show Real.arccos (toJN (vJ (argsR v)) (losN (v 4) (v 3)) (losN (v 4) (v 3))).2.2 = _
    rw [hR]; rfl
  · show Jnp.arctan2 (toJN (vJ (argsR v)) (losN (v 4) (v 3)) (0, 0, 1)).2.1 (toJN (vJ (argsR v)) (losN (v 4) (v 3)) (0, 0, 1)).1 = _
    rw [hR]; rfl
  · show -Jnp.arctan2 (vJ (argsR v)).2.1 (vJ (argsR v)).1 = _
    rw [j1, j2]; rfl
  · show Jnp.arctan2 ((toJN (vJ (argsR v)) (losN (v 4) (v 3)) (vX (argsR v))).1 *
        (toJN (vJ (argsR v)) (losN (v 4) (v 3)) (losN (v 4) (v 3))).2.2 +
        (toJN (vJ (argsR v)) (losN (v 4) (v 3)) (vX (argsR v))).2.1 * 0 +
        (toJN (vJ (argsR v)) (losN (v 4) (v 3)) (vX (argsR v))).2.2 *
          -(toJN (vJ (argsR v)) (losN (v 4) (v 3)) (losN (v 4) (v 3))).1)
      ((toJN (vJ (argsR v)) (losN (v 4) (v 3)) (vX (argsR v))).1 * 0 +
        (toJN (vJ (argsR v)) (losN (v 4) (v 3)) (vX (argsR v))).2.1 * -1 +
        (toJN (vJ (argsR v)) (losN (v 4) (v 3)) (vX (argsR v))).2.2 * 0) = _
    rw [hR]; rfl

lemma jz_continuous (v : Fin 11 → ℝ) (h0 : 0 < v 0) (h1 : 0 < v 1) (h2 : 0 < v 2) :
    ContinuousAt (fun w : Fin 11 → ℝ => (jOf w).2.2) v := by
  have g := gt_pos
  have p := Real.pi_pos
  unfold jOf totalJ orbitalL
  have hM : v 0 + v 1 ≠ 0 := (add_pos h0 h1).ne'
  fun_prop (disch := first | positivity | (left; positivity) | assumption)

/-- whereas the five values are locally independent of the masses, the reference frequency and the aligned spins there, so that
    their derivatives vanish -/
theorem C108_aligned_smooth (v : Fin 11 → ℝ) (h0 : 0 < v 0) (h1 : 0 < v 1) (h2 : 0 < v 2) (p5 : v 5 = 0) (p6 : v 6 = 0)
    (p8 : v 8 = 0) (p9 : v 9 = 0) (hz : 0 < (jOf v).2.2) (i : Fin 11) (hi : i ∈ ({0, 1, 2, 7, 10} : Finset (Fin 11))) (k : Fin 5) :
    HasDerivAt (fun t => outVal (spinsOf (Function.update v i t)) k) 0 (v i) := by
  obtain ⟨F, hF⟩ := aligned_val
  have c : ContinuousAt (fun t => Function.update v i t) (v i) := (continuous_const.update i continuous_id).continuousAt
  have e0 : Function.update v i (v i) = v := Function.update_eq_self i v
  have cj : ∀ j, ContinuousAt (fun t => Function.update v i t j) (v i) := fun j => (continuous_apply j).continuousAt.comp c
  have ev : ∀ j, 0 < v j → ∀ᶠ t in nhds (v i), 0 < Function.update v i t j := fun j hj =>
    (cj j).eventually_const_lt (by beta_reduce; rw [e0]; exact hj)
  have ez : ∀ᶠ t in nhds (v i), 0 < (jOf (Function.update v i t)).2.2 := by
    have : ContinuousAt (fun t => (jOf (Function.update v i t)).2.2) (v i) :=
      ContinuousAt.comp (g := fun w : Fin 11 → ℝ => (jOf w).2.2) (by rw [e0]; exact jz_continuous v h0 h1 h2) c
    exact this.eventually_const_lt (by beta_reduce; rw [e0]; exact hz)
  refine (hasDerivAt_const (v i) (F (v 3) (v 4) k)).congr_of_eventuallyEq ?_
  filter_upwards [ev 0 h0, ev 1 h1, ev 2 h2, ez] with t t0 t1 t2 tz
  have u : ∀ j : Fin 11, j ≠ i → Function.update v i t j = v j := fun j hj => Function.update_of_ne hj _ _
  have n : ∀ j ∈ ({3, 4, 5, 6, 8, 9} : Finset (Fin 11)), j ≠ i := by
    clear * - hi
    revert i
    decide +kernel
  rw [hF _ t0 t1 t2 (by rw [u 5 (n 5 (by decide))]; exact p5) (by rw [u 6 (n 6 (by decide))]; exact p6)
    (by rw [u 8 (n 8 (by decide))]; exact p8) (by rw [u 9 (n 9 (by decide))]; exact p9) tz, u 3 (n 3 (by decide)), u 4 (n 4 (by decide))]

example : ∃ v : Fin 11 → ℝ, 0 < v 0 ∧ 0 < v 1 ∧ 0 < v 2 ∧ v 5 = 0 ∧ v 6 = 0 ∧ v 8 = 0 ∧ v 9 = 0 ∧ 0 < (jOf v).2.2 := by
  refine ⟨![20, 30, 20, 0, 0.3, 0, 0, 0.5, 0, 0, 0.2], ?_⟩
  refine ⟨?_, ?_, ?_, rfl, rfl, rfl, rfl, ?_⟩
  · show (0 : ℝ) < 20; norm_num
  · show (0 : ℝ) < 30; norm_num
  · show (0 : ℝ) < 20; norm_num
  · show 0 < (totalJ gt 20 30 20 (0, 0, 0.5) (0, 0, 0.2)).2.2
    exact jz_pos (by norm_num) (by norm_num)

/-- if a body has no in-plane spin, the gradient in the in-plane components of its spin of everything that is computed from
    the effective precession spin is nan -/
theorem C108_in_plane_nan (v : Fin 11 → ℝ) (ct : Cot) (hl : ct 41 ≠ none) :
    (v 5 = 0 → v 6 = 0 → back (args v) convertProg ct 5 = some .nan ∧ back (args v) convertProg ct 6 = some .nan) ∧
    (v 8 = 0 → v 9 = 0 → back (args v) convertProg ct 8 = some .nan ∧ back (args v) convertProg ct 9 = some .nan) := by
  rw [args_eq]
  exact ⟨fun a b => single1_nan (congrArg XR.fin a) (congrArg XR.fin b) hl,
    fun a b => single2_nan (congrArg XR.fin a) (congrArg XR.fin b) hl⟩

/-- whereas the effective precession spin is locally independent of them if the other body has in-plane spin -/
theorem C108_in_plane_smooth (v : Fin 11 → ℝ) (h0 : 0 < v 0) (h1 : 0 < v 1) :
    (v 5 = 0 → v 6 = 0 → (v 8 ≠ 0 ∨ v 9 ≠ 0) →
      ∀ᶠ w in nhds ((0 : ℝ), (0 : ℝ)), (spinsOf (Function.update (Function.update v 5 w.1) 6 w.2)).chip = (spinsOf v).chip) ∧
    (v 8 = 0 → v 9 = 0 → (v 5 ≠ 0 ∨ v 6 ≠ 0) →
      ∀ᶠ w in nhds ((0 : ℝ), (0 : ℝ)), (spinsOf (Function.update (Function.update v 8 w.1) 9 w.2)).chip = (spinsOf v).chip) := by
  have A : ∀ m m' : ℝ, 0 < m → 0 < m' → 0 < 2 + 3 * m / (2 * m') := fun m m' a b => by positivity
  have pos : ∀ x y : ℝ, x ≠ 0 ∨ y ≠ 0 → 0 < Real.sqrt (x ^ 2 + y ^ 2) := by
    intro x y h
    apply Real.sqrt_pos.2
    rcases h with h | h <;> positivity
  constructor
  · intro a b c
    have K : 0 < (2 + 3 * v 0 / (2 * v 1)) * (v 1 * v 1 * Real.sqrt (v 8 ^ 2 + v 9 ^ 2)) :=
      mul_pos (A _ _ h0 h1) (mul_pos (mul_pos h1 h1) (pos _ _ c))
    have cont : ContinuousAt (fun w : ℝ × ℝ => (2 + 3 * v 1 / (2 * v 0)) * (v 0 * v 0 * Real.sqrt (w.1 ^ 2 + w.2 ^ 2))) (0, 0) := by
      fun_prop
    filter_upwards [cont.eventually_lt_const (u := (2 + 3 * v 0 / (2 * v 1)) * (v 1 * v 1 * Real.sqrt (v 8 ^ 2 + v 9 ^ 2))) (by simpa using K)] with w hw
    show max ((2 + 3 * v 1 / (2 * v 0)) * (v 0 * v 0 * Real.sqrt (w.1 ^ 2 + w.2 ^ 2)))
        ((2 + 3 * v 0 / (2 * v 1)) * (v 1 * v 1 * Real.sqrt (v 8 ^ 2 + v 9 ^ 2))) / _ =
      max ((2 + 3 * v 1 / (2 * v 0)) * (v 0 * v 0 * Real.sqrt (v 5 ^ 2 + v 6 ^ 2)))
        ((2 + 3 * v 0 / (2 * v 1)) * (v 1 * v 1 * Real.sqrt (v 8 ^ 2 + v 9 ^ 2))) / _
    rw [a, b, max_eq_right hw.le, max_eq_right (by simpa using K.le)]
    rfl
  · intro a b c
    have K : 0 < (2 + 3 * v 1 / (2 * v 0)) * (v 0 * v 0 * Real.sqrt (v 5 ^ 2 + v 6 ^ 2)) :=
      mul_pos (A _ _ h1 h0) (mul_pos (mul_pos h0 h0) (pos _ _ c))
    have cont : ContinuousAt (fun w : ℝ × ℝ => (2 + 3 * v 0 / (2 * v 1)) * (v 1 * v 1 * Real.sqrt (w.1 ^ 2 + w.2 ^ 2))) (0, 0) := by
      fun_prop
    filter_upwards [cont.eventually_lt_const (u := (2 + 3 * v 1 / (2 * v 0)) * (v 0 * v 0 * Real.sqrt (v 5 ^ 2 + v 6 ^ 2))) (by simpa using K)] with w hw
    show max ((2 + 3 * v 1 / (2 * v 0)) * (v 0 * v 0 * Real.sqrt (v 5 ^ 2 + v 6 ^ 2)))
        ((2 + 3 * v 0 / (2 * v 1)) * (v 1 * v 1 * Real.sqrt (w.1 ^ 2 + w.2 ^ 2))) / _ =
      max ((2 + 3 * v 1 / (2 * v 0)) * (v 0 * v 0 * Real.sqrt (v 5 ^ 2 + v 6 ^ 2)))
        ((2 + 3 * v 0 / (2 * v 1)) * (v 1 * v 1 * Real.sqrt (v 8 ^ 2 + v 9 ^ 2))) / _
    rw [a, b, max_eq_left hw.le, max_eq_left (by simpa using K.le)]
    rfl

end Ripple

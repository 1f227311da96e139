/-
  Property C116: the precessing waveform is continuously differentiable in all twelve parameters together, in general position.
-/
import Verif.Proofs.Pv2GradTwist
import Verif.Props.PhenomDGrad
import Verif.Props.Pv2

namespace Ripple
open scoped ContDiff Topology
open Set Filter PhenomD Pv2 V3

/-- effective precession spin: the larger of the in-plane spin of the heavier body `m1` and the rescaled one of the lighter -/
noncomputable def precessionSpin (m1 m2 : ℝ) (s1 s2 : V3) : ℝ :=
  max ((4 * m2 + 3 * m1) * m2 / ((4 * m1 + 3 * m2) * m1) * √(s2.1 ^ 2 + s2.2.1 ^ 2)) (√(s1.1 ^ 2 + s1.2.1 ^ 2))

/-- spin of the remnant of a precessing binary: aligned-spin remnant and in-plane spin as perpendicular vectors, with the sign of
    the former -/
noncomputable def precessingRemnant (m1 m2 : ℝ) (s1 s2 : V3) : ℝ :=
  let a := remnantSpinOf ⟨m1, m2, s1.2.2, s2.2.2⟩
  (if a < 0 then -1 else 1) * √(a ^ 2 + (precessionSpin m1 m2 s1 s2 * (m1 / (m1 + m2)) ^ 2) ^ 2)

/-- A precessing binary in general position, seen at a reference frequency: unequal masses; the bodies' in-plane spins contribute
    differently to the precession spin; the total angular momentum is not along the orbital one, and the line of sight not along
    the total one; the remnant has aligned spin, is not at a node of the tables; the ringdown amplitude is not at the threshold
    between having and not having a peak. -/
structure GeneralPosition (Q : QNM) (m1 m2 : ℝ) (s1 s2 : V3) (phiRef incl f_ref : ℝ) : Prop where
  pos : 0 < m2
  heavier : m2 < m1
  len1 : len s1 ≤ 1
  len2 : len s2 ≤ 1
  ref : 0 < f_ref
  plane : (4 * m2 + 3 * m1) * m2 / ((4 * m1 + 3 * m2) * m1) * √(s2.1 ^ 2 + s2.2.1 ^ 2) ≠ √(s1.1 ^ 2 + s1.2.1 ^ 2)
  tilt : (totalJ gt m2 m1 f_ref s2 s1).1 ≠ 0 ∨ (totalJ gt m2 m1 f_ref s2 s1).2.1 ≠ 0
  sight : V3.cross (totalJ gt m2 m1 f_ref s2 s1) (dir incl (Real.pi / 2 - phiRef)) ≠ 0
  aligned : remnantSpinOf ⟨m1, m2, s1.2.2, s2.2.2⟩ ≠ 0
  node : precessingRemnant m1 m2 s1 s2 ∉ Q.a
  peak : get_coeffs ⟨m1, m2, s1.2.2, s2.2.2⟩ 5 ≠ 1

lemma aligned_eq {m1 m2 : ℝ} (s1 s2 : V3) (h2 : 0 < m2) (h : m2 ≤ m1) :
    FinalSpin0815 (m1 * m2 / ((m1 + m2) * (m1 + m2))) s1.2.2 s2.2.2 = remnantSpinOf ⟨m1, m2, s1.2.2, s2.2.2⟩ := by
  have h1 : 0 < m1 := lt_of_lt_of_le h2 h
  rw [finalSpin0815_eq h2 h]
  change _ = FinalSpin0815_s (m1 * m2 / (m1 + m2) ^ 2) ((s1.2.2 * m1 ^ 2 + s2.2.2 * m2 ^ 2) / (m1 + m2) ^ 2)
  rw [finalSpin_eq (by positivity)]
  have e1 : m2 / (m1 + m2) * (m1 / (m1 + m2)) = m1 * m2 / (m1 + m2) ^ 2 := by field_simp
  have e2 : (m1 / (m1 + m2)) ^ 2 * s1.2.2 + (m2 / (m1 + m2)) ^ 2 * s2.2.2 =
      (s1.2.2 * m1 ^ 2 + s2.2.2 * m2 ^ 2) / (m1 + m2) ^ 2 := by field_simp
  rw [e1, e2]

lemma remnant_eq {m1 m2 : ℝ} (s1 s2 : V3) (f_ref phiRef incl : ℝ) (h2 : 0 < m2) (h : m2 ≤ m1) :
    FinalSpin_inplane m1 m2 s1.2.2 s2.2.2 (conv m2 m1 f_ref phiRef incl s2 s1).chip = precessingRemnant m1 m2 s1 s2 := by
  have h1 : 0 < m1 := lt_of_lt_of_le h2 h
  rw [C57_value f_ref phiRef incl s2 s1 h2 h1]
  unfold FinalSpin_inplane precessingRemnant precessionSpin
  dsimp only
  rw [aligned_eq s1 s2 h2 h]
  unfold Jnp.copysign1
  congr 2
  ring

/-- Both polarisations at a sample that the cutoff leaves alone are continuously differentiable in all twelve parameters (masses,
    both spin vectors, distance, time, reference phase, inclination) together, for every binary in general position, wherever the
    orbital angular momentum at that frequency does not cancel the aligned spins.  A sample is left alone if the whole increasing
    grid, or at least the next two points of it, lie below 0.2/M. -/
theorem C116_masses (Q : QNM) (hq : Q.Shipped) (m1 m2 : ℝ) (s1 s2 : V3) (D tc phiRef incl f_ref : ℝ)
    (h : GeneralPosition Q m1 m2 s1 s2 phiRef incl f_ref) (hD : 0 < D) (grid : List ℝ) (hinc : Increasing grid) (j : ℕ)
    (hj : j < grid.length) (hf : 0 < grid.getD j 0) (hL : LplusS m1 m2 s1 s2 (grid.getD j 0) ≠ 0)
    (hk : grid.getD (grid.length - 1) 0 < 0.2 / ((m1 + m2) * gt) ∨
      (j + 2 < grid.length ∧ grid.getD (j + 2) 0 < 0.2 / ((m1 + m2) * gt))) :
    ∃ P X : (Fin 12 → ℝ) → ℂ,
      (∀ p, ∃ hp hc, gen_IMRPhenomPv2 Q grid
        [p 0, p 1, p 2, p 3, p 4, p 5, p 6, p 7, p 8, p 9, p 10, p 11] f_ref = .ok (hp, hc) ∧
        hp.getD j 0 = P p ∧ hc.getD j 0 = X p) ∧
      ContDiffAt ℝ 1 P ![m1, m2, s1.1, s1.2.1, s1.2.2, s2.1, s2.2.1, s2.2.2, D, tc, phiRef, incl] ∧
      ContDiffAt ℝ 1 X ![m1, m2, s1.1, s1.2.1, s1.2.2, s2.1, s2.2.1, s2.2.2, D, tc, phiRef, incl] := by
  have h2 := h.pos
  have h1 : 0 < m1 := h2.trans h.heavier
  have hg := gt_pos
  obtain ⟨p0, e0⟩ : ∃ p : Fin 12 → ℝ, p = ![m1, m2, s1.1, s1.2.1, s1.2.2, s2.1, s2.2.1, s2.2.2, D, tc, phiRef, incl] :=
    ⟨_, rfl⟩
  rw [← e0]
  have v0 : p0 0 = m1 := by rw [e0]; rfl
  have v1 : p0 1 = m2 := by rw [e0]; rfl
  have v8 : p0 8 = D := by rw [e0]; rfl
  have v10 : p0 10 = phiRef := by rw [e0]; rfl
  have v11 : p0 11 = incl := by rw [e0]; rfl
  have vs1 : ((p0 2, p0 3, p0 4) : V3) = s1 := by rw [e0]; rfl
  have vs2 : ((p0 5, p0 6, p0 7) : V3) = s2 := by rw [e0]; rfl
  obtain ⟨k1, hs1⟩ : ∃ s : (Fin 12 → ℝ) → V3, ∀ p, s p = (p 2, p 3, p 4) := ⟨_, fun _ => rfl⟩
  obtain ⟨k2, hs2⟩ : ∃ s : (Fin 12 → ℝ) → V3, ∀ p, s p = (p 5, p 6, p 7) := ⟨_, fun _ => rfl⟩
  have c1 : ContDiffAt ℝ ∞ k1 p0 := by
    rw [show k1 = fun p => ((p 2, p 3, p 4) : V3) from funext hs1]
    exact ContDiffAt.prodMk (by fun_prop) (ContDiffAt.prodMk (by fun_prop) (by fun_prop))
  have c2 : ContDiffAt ℝ ∞ k2 p0 := by
    rw [show k2 = fun p => ((p 5, p 6, p 7) : V3) from funext hs2]
    exact ContDiffAt.prodMk (by fun_prop) (ContDiffAt.prodMk (by fun_prop) (by fun_prop))
  have w1 : k1 p0 = s1 := (hs1 p0).trans vs1
  have w2 : k2 p0 = s2 := (hs2 p0).trans vs2
  have hJ : 0 < (totalJ gt m2 m1 f_ref s2 s1).1 ^ 2 + (totalJ gt m2 m1 f_ref s2 s1).2.1 ^ 2 := by
    rcases h.tilt with t | t <;> positivity
  obtain ⟨C1, C2, C3, C4, C5, C6, C7⟩ := conv_smooth (e0 := p0) (a := fun p => p 1) (b := fun p => p 0) (phi := fun p => p 10)
    (inc := fun p => p 11) (u := k2) (v := k1) (by fun_prop) (by fun_prop) c2 c1 (by fun_prop) (by fun_prop)
    (by simp only [v1]; exact h2) (by simp only [v0]; exact h1) h.ref (by simp only [v0, v1, w1, w2]; exact hJ)
    (by simp only [v0, v1, v10, v11, w1, w2]; exact h.sight) (by simp only [v0, v1, w1, w2]; exact h.plane)
  have F : PFam Q (fun p : Fin 12 → ℝ => p 0) (fun p => p 1) k1 k2
      (fun p => (conv (p 1) (p 0) f_ref (p 10) (p 11) (k2 p) (k1 p)).chip) p0 := by
    refine ⟨⟨by fun_prop, by fun_prop, c1, c2, C1, by simp only [v1]; exact h2, by simp only [v0, v1]; exact h.heavier,
      by rw [w1]; exact h.len1, by rw [w2]; exact h.len2⟩, hq, ?_, ?_, ?_⟩
    · simp only [v0, v1, w1, w2]
      rw [remnant_eq s1 s2 f_ref _ _ h2 h.heavier.le]
      exact h.node
    · simp only [v0, v1, w1, w2]
      rw [aligned_eq s1 s2 h2 h.heavier.le]
      exact h.aligned
    · simp only [v0, v1, w1, w2]
      exact h.peak
  have hc : ContDiffAt ℝ ∞ (fun p : Fin 12 → ℝ => 0.2 / ((p 0 + p 1) * gt)) p0 := F.over 0.2
  have ecut : ∀ p : Fin 12 → ℝ, fM_CUT / Ms (thetaP (p 0) (p 1) (k1 p) (k2 p)) = 0.2 / ((p 0 + p 1) * gt) := fun p => by
    rw [← Ms_eq]; rfl
  have ev : ∀ᶠ p in 𝓝 p0, grid.getD j 0 < cutThr grid (fM_CUT / Ms (thetaP (p 0) (p 1) (k1 p) (k2 p))) := by
    simp only [ecut]
    rcases hk with hk | ⟨hj2, hk⟩
    · rw [← v0, ← v1] at hk
      filter_upwards [hc.continuousAt.eventually_const_lt hk] with p hp
      exact below_cutThr hinc hj (Or.inl hp)
    · rw [← v0, ← v1] at hk
      filter_upwards [hc.continuousAt.eventually_const_lt hk] with p hp
      exact below_cutThr hinc hj (Or.inr ⟨hj2, hp⟩)
  obtain ⟨T1, T2⟩ := F.twP_fam (D := fun p => p 8) (tc := fun p => p 9) (f := fun _ => grid.getD j 0)
    (thr := fun p => cutThr grid (fM_CUT / Ms (thetaP (p 0) (p 1) (k1 p) (k2 p)))) (by fun_prop) (by simp only [v8]; exact hD)
    (by fun_prop) contDiffAt_const hf h.ref ev C2 C3 C4 C5 (by simp only [v0, v1, w1, w2]; exact hL)
  have le : (1 : WithTop ℕ∞) ≤ ∞ := by exact_mod_cast le_top
  have R1 := PFam.ofReal_fam (C6.of_le le)
  have R2 := PFam.ofReal_fam (C7.of_le le)
  refine ⟨fun p => (rotP (conv (p 1) (p 0) f_ref (p 10) (p 11) (k2 p) (k1 p)).zeta_polariz
      (twP Q (p 0) (p 1) (k1 p) (k2 p) (p 8) (p 9) f_ref (conv (p 1) (p 0) f_ref (p 10) (p 11) (k2 p) (k1 p))
        (cutThr grid (fM_CUT / Ms (thetaP (p 0) (p 1) (k1 p) (k2 p)))) (grid.getD j 0))).1,
    fun p => (rotP (conv (p 1) (p 0) f_ref (p 10) (p 11) (k2 p) (k1 p)).zeta_polariz
      (twP Q (p 0) (p 1) (k1 p) (k2 p) (p 8) (p 9) f_ref (conv (p 1) (p 0) f_ref (p 10) (p 11) (k2 p) (k1 p))
        (cutThr grid (fM_CUT / Ms (thetaP (p 0) (p 1) (k1 p) (k2 p)))) (grid.getD j 0))).2,
    fun p => ?_, (R1.mul T1).add (R2.mul T2), (R1.mul T2).sub (R2.mul T1)⟩
  have := genP_eq Q grid (p 0) (p 1) (k1 p) (k2 p) (p 8) (p 9) (p 10) (p 11) f_ref
  have hpar : pars (p 0) (p 1) (k1 p) (k2 p) (p 8) (p 9) (p 10) (p 11) =
      [p 0, p 1, p 2, p 3, p 4, p 5, p 6, p 7, p 8, p 9, p 10, p 11] := by
    rw [hs1, hs2]
    rfl
  rw [hpar] at this
  exact ⟨_, _, this, map_getElem hj, map_getElem hj⟩

/-- The same in chirp mass and symmetric mass ratio, for the wrapper that takes these, below symmetric mass ratio 1/4. -/
theorem C116_chirp_mass (Q : QNM) (hq : Q.Shipped) (Mc eta : ℝ) (hMc : 0 < Mc) (he : 0 < eta) (he' : eta < 1 / 4) (s1 s2 : V3)
    (D tc phiRef incl f_ref : ℝ) (m1 m2 : ℝ) (hm : Mc_eta_to_ms Mc eta = (m1, m2))
    (h : GeneralPosition Q m1 m2 s1 s2 phiRef incl f_ref) (hD : 0 < D) (grid : List ℝ) (hinc : Increasing grid) (j : ℕ)
    (hj : j < grid.length) (hf : 0 < grid.getD j 0) (hL : LplusS m1 m2 s1 s2 (grid.getD j 0) ≠ 0)
    (hk : grid.getD (grid.length - 1) 0 < 0.2 / ((m1 + m2) * gt) ∨
      (j + 2 < grid.length ∧ grid.getD (j + 2) 0 < 0.2 / ((m1 + m2) * gt))) :
    ∃ P X : (Fin 12 → ℝ) → ℂ,
      (∀ p, ∃ hp hc, gen_IMRPhenomPv2_hphc Q grid
        [p 0, p 1, p 2, p 3, p 4, p 5, p 6, p 7, p 8, p 9, p 10, p 11] f_ref = .ok (hp, hc) ∧
        hp.getD j 0 = P p ∧ hc.getD j 0 = X p) ∧
      ContDiffAt ℝ 1 P ![Mc, eta, s1.1, s1.2.1, s1.2.2, s2.1, s2.2.1, s2.2.2, D, tc, phiRef, incl] ∧
      ContDiffAt ℝ 1 X ![Mc, eta, s1.1, s1.2.1, s1.2.2, s2.1, s2.2.1, s2.2.2, D, tc, phiRef, incl] := by
  obtain ⟨P, X, e, cP, cX⟩ := C116_masses Q hq m1 m2 s1 s2 D tc phiRef incl f_ref h hD grid hinc j hj hf hL hk
  obtain ⟨p0, e0⟩ : ∃ p : Fin 12 → ℝ, p = ![Mc, eta, s1.1, s1.2.1, s1.2.2, s2.1, s2.2.1, s2.2.2, D, tc, phiRef, incl] :=
    ⟨_, rfl⟩
  rw [← e0]
  have v0 : p0 0 = Mc := by rw [e0]; rfl
  have v1 : p0 1 = eta := by rw [e0]; rfl
  rw [← v0] at hMc
  rw [← v1] at he he'
  have M : ContDiffAt ℝ 1 (fun p : Fin 12 → ℝ => p 0 / p 1 ^ ((3 : ℝ) / 5)) p0 :=
    ContDiffAt.div (by fun_prop) (ContDiffAt.rpow_const_of_ne (by fun_prop) he.ne') (Real.rpow_pos_of_pos he _).ne'
  have Mp : 0 < p0 0 / p0 1 ^ ((3 : ℝ) / 5) := div_pos hMc (Real.rpow_pos_of_pos he _)
  have S : ContDiffAt ℝ 1 (fun p : Fin 12 → ℝ =>
      √((p 0 / p 1 ^ ((3 : ℝ) / 5)) ^ 2 - 4 * (p 0 / p 1 ^ ((3 : ℝ) / 5)) ^ 2 * p 1)) p0 := by
    refine ContDiffAt.sqrt (by fun_prop) ?_
    have : 0 < (p0 0 / p0 1 ^ ((3 : ℝ) / 5)) ^ 2 * (1 - 4 * p0 1) := mul_pos (by positivity) (by linarith)
    refine ne_of_gt ?_
    linarith
  have n2 : ContDiffAt ℝ 1 (fun p : Fin 12 → ℝ => (Mc_eta_to_ms (p 0) (p 1)).2) p0 := (M.sub S).div_const 2
  have n1 : ContDiffAt ℝ 1 (fun p : Fin 12 → ℝ => (Mc_eta_to_ms (p 0) (p 1)).1) p0 := M.sub n2
  have G : ContDiffAt ℝ 1 (fun p : Fin 12 → ℝ => ![(Mc_eta_to_ms (p 0) (p 1)).1, (Mc_eta_to_ms (p 0) (p 1)).2, p 2, p 3, p 4,
      p 5, p 6, p 7, p 8, p 9, p 10, p 11]) p0 := contDiffAt_pi.2 fun i => by
    fin_cases i
    · exact n1
    · exact n2
    all_goals
      simp
      fun_prop
  have g0 : ![(Mc_eta_to_ms (p0 0) (p0 1)).1, (Mc_eta_to_ms (p0 0) (p0 1)).2, p0 2, p0 3, p0 4, p0 5, p0 6, p0 7, p0 8, p0 9,
      p0 10, p0 11] = ![m1, m2, s1.1, s1.2.1, s1.2.2, s2.1, s2.2.1, s2.2.2, D, tc, phiRef, incl] := by
    rw [v0, v1, hm, e0]
    rfl
  rw [← g0] at cP cX
  refine ⟨_, _, fun p => ?_, ContDiffAt.comp p0 cP G, ContDiffAt.comp p0 cX G⟩
  obtain ⟨hp, hc, e1, e2, e3⟩ := e ![(Mc_eta_to_ms (p 0) (p 1)).1, (Mc_eta_to_ms (p 0) (p 1)).2, p 2, p 3, p 4, p 5, p 6, p 7,
    p 8, p 9, p 10, p 11]
  refine ⟨hp, hc, ?_, e2, e3⟩
  rw [← e1]
  exact C61_masses Q grid (p 2, p 3, p 4) (p 5, p 6, p 7) (p 8) (p 9) (p 10) (p 11) f_ref (p 0) (p 1) []

/-! ### the hypotheses are met -/

lemma witnessP_aligned : remnantSpinOf ⟨30, 20, 0.2, -0.45⟩ = FinalSpin0815_s 0.24 0 := by
  unfold remnantSpinOf
  norm_num

lemma witnessP_spin : (0.6641646 : ℝ) < FinalSpin0815_s 0.24 0 ∧ FinalSpin0815_s 0.24 0 < (0.6641647 : ℝ) := by
  unfold FinalSpin0815_s
  norm_num

lemma witnessP_node : precessingRemnant 30 20 (0.4, 0, 0.2) (0, 0, -0.45) ∉ (qnmTable 1.2e-7).a := by
  obtain ⟨a1, a2⟩ := witnessP_spin
  have ec : precessionSpin 30 20 (0.4, 0, 0.2) (0, 0, -0.45) = 0.4 := by
    unfold precessionSpin
    have r : √((0.4 : ℝ) ^ 2 + 0 ^ 2) = 0.4 := by
      rw [show (0.4 : ℝ) ^ 2 + 0 ^ 2 = 0.4 ^ 2 by norm_num, Real.sqrt_sq (by norm_num)]
    dsimp only
    rw [r]
    norm_num
  have e : precessingRemnant 30 20 (0.4, 0, 0.2) (0, 0, -0.45) = √(FinalSpin0815_s 0.24 0 ^ 2 + 0.144 ^ 2) := by
    unfold precessingRemnant
    rw [ec]
    dsimp only
    rw [witnessP_aligned, if_neg (by linarith)]
    norm_num
  rw [e]
  generalize FinalSpin0815_s 0.24 0 = a at a1 a2 ⊢
  have b1 : (0.6795955 : ℝ) < √(a ^ 2 + 0.144 ^ 2) := by
    apply Real.lt_sqrt_of_sq_lt
    nlinarith
  have b2 : √(a ^ 2 + 0.144 ^ 2) < (0.679597 : ℝ) := by
    rw [Real.sqrt_lt' (by norm_num)]
    nlinarith
  obtain ⟨-, -, -, -, -, -, -, len, val, -⟩ := C93_tables 1.2e-7
  intro h
  obtain ⟨k, hk, hv⟩ := List.getElem_of_mem h
  have hk' := hk
  rw [len] at hk'
  have hv' := val k hk'
  rw [List.getD_eq_getElem _ _ hk, hv] at hv'
  rw [hv'] at b1 b2
  have a : ((419898 : ℕ) : ℝ) < k := by push_cast; linarith
  have b : (k : ℝ) < ((419899 : ℕ) : ℝ) := by push_cast; linarith
  have a' := Nat.cast_lt.1 a
  have b' := Nat.cast_lt.1 b
  omega

/-- a 30+20 binary seen along its orbital angular momentum, the heavier body with a tilted spin, with the tables as shipped -/
lemma witnessP : GeneralPosition (qnmTable 1.2e-7) 30 20 (0.4, 0, 0.2) (0, 0, -0.45) 0 0 20 := by
  have l1 : len (0.4, 0, 0.2) ≤ 1 := by unfold len V3.dot; rw [Real.sqrt_le_one]; norm_num
  have l2 : len (0, 0, -0.45) ≤ 1 := by unfold len V3.dot; rw [Real.sqrt_le_one]; norm_num
  refine ⟨by norm_num, by norm_num, l1, l2, by norm_num, ?_, Or.inl ?_, ?_, ?_, witnessP_node, ?_⟩
  · norm_num
    exact (by positivity : (0 : ℝ) < √4 / √25).ne
  · norm_num [totalJ]
  · intro h
    have := congrArg (fun v : V3 => v.2.1) h
    norm_num [V3.cross, dir, totalJ] at this
  · rw [witnessP_aligned]
    linarith [witnessP_spin.1]
  · exact (gamma2_lt (theta := ⟨30, 20, 0.2, -0.45⟩) (thetaP_physical (s1 := (0.4, 0, 0.2)) (s2 := (0, 0, -0.45)) (by norm_num)
      (by norm_num) l1 l2) (Or.inr (by norm_num))).ne

lemma witnessP_L : LplusS 30 20 (0.4, 0, 0.2) (0, 0, -0.45) 30 ≠ 0 := by
  have hv : 0 < vOf 30 20 30 := by
    have := gt_pos; have := Real.pi_pos; unfold vOf; positivity
  unfold LplusS orbitalL
  generalize vOf 30 20 30 = v at hv
  refine ne_of_gt ?_
  norm_num
  positivity

example (D tc : ℝ) (hD : 0 < D) : ∃ P X : (Fin 12 → ℝ) → ℂ,
    (∀ p, ∃ hp hc, gen_IMRPhenomPv2 (qnmTable 1.2e-7) [20, 30, 40]
      [p 0, p 1, p 2, p 3, p 4, p 5, p 6, p 7, p 8, p 9, p 10, p 11] 20 = .ok (hp, hc) ∧
      hp.getD 1 0 = P p ∧ hc.getD 1 0 = X p) ∧
    ContDiffAt ℝ 1 P ![30, 20, 0.4, 0, 0.2, 0, 0, -0.45, D, tc, 0, 0] ∧
    ContDiffAt ℝ 1 X ![30, 20, 0.4, 0, 0.2, 0, 0, -0.45, D, tc, 0, 0] :=
  C116_masses _ (C93_shipped (by norm_num) (by norm_num)) 30 20 (0.4, 0, 0.2) (0, 0, -0.45) D tc 0 0 20 witnessP hD [20, 30, 40]
    witness_grid 1 (by simp) (by simp) witnessP_L (Or.inl (by norm_num [gt, G, MSUN, C]))

end Ripple

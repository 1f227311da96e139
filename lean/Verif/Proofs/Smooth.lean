/-
  Tools for smoothness in the parameters: derivatives with respect to one argument, solutions of linear systems, and
  functions glued along a moving joint.
-/
import Verif.Model.PhenomXAS
import Verif.Proofs.Glue
import Mathlib.Analysis.Calculus.ContDiff.Comp
import Mathlib.Analysis.Calculus.ContDiff.Operations
import Mathlib.Analysis.Calculus.InverseFunctionTheorem.ContDiff
import Mathlib.Analysis.Calculus.Deriv.Prod
import Mathlib.LinearAlgebra.Matrix.Adjugate

namespace Ripple
open scoped ContDiff Topology
open Filter

variable {E : Type} [NormedAddCommGroup E] [NormedSpace ℝ E]

/-- the derivative in the last argument along a smooth curve of arguments is smooth -/
lemma smooth_deriv {G : E → ℝ → ℝ} {x : E → ℝ} {e0 : E} (hG : ContDiffAt ℝ ∞ (Function.uncurry G) (e0, x e0))
    (hx : ContDiffAt ℝ ∞ x e0) : ContDiffAt ℝ ∞ (fun e => deriv (G e) (x e)) e0 := by
  have h := ContDiffAt.fderiv hG hx (m := ∞) (by simp)
  have h1 : ContDiffAt ℝ ∞ (fun e => (fderiv ℝ (G e) (x e)) 1) e0 := h.clm_apply contDiffAt_const
  exact h1

/-- the determinant of a matrix of smooth functions -/
lemma smooth_det {n : ℕ} {A : E → Matrix (Fin n) (Fin n) ℝ} {e0 : E} (hA : ∀ i j, ContDiffAt ℝ ∞ (fun e => A e i j) e0) :
    ContDiffAt ℝ ∞ (fun e => (A e).det) e0 := by
  simp only [Matrix.det_apply']
  exact ContDiffAt.sum fun σ _ => contDiffAt_const.mul (contDiffAt_prod fun i _ => hA _ _)

/-- the solution of a non-singular linear system depends smoothly on its entries -/
lemma smooth_solve {n : ℕ} {A : E → Matrix (Fin n) (Fin n) ℝ} {b : E → Fin n → ℝ} {e0 : E}
    (hA : ∀ i j, ContDiffAt ℝ ∞ (fun e => A e i j) e0) (hb : ∀ i, ContDiffAt ℝ ∞ (fun e => b e i) e0)
    (h0 : (A e0).det ≠ 0) (k : Fin n) : ContDiffAt ℝ ∞ (fun e => Jnp.solve (A e) (b e) k) e0 := by
  have hd := smooth_det hA
  have he : ∀ e, Jnp.solve (A e) (b e) k = ((A e).det)⁻¹ * ((A e).updateCol k (b e)).det := by
    intro e
    unfold Jnp.solve
    rw [Matrix.inv_def, Matrix.smul_mulVec, ← Matrix.cramer_eq_adjugate_mulVec, Pi.smul_apply, Matrix.cramer_apply,
      Ring.inverse_eq_inv', smul_eq_mul]
  simp only [he]
  refine (hd.inv h0).mul (smooth_det fun i j => ?_)
  simp only [Matrix.updateCol_apply]
  split_ifs
  · exact hb i
  · exact hA i j

/-- two C¹ functions with equal values and differentials where `j` vanishes, glued along that set -/
lemma glue_C1 {A B F j : E → ℝ} {e0 : E} (hA : ContDiffAt ℝ 1 A e0) (hB : ContDiffAt ℝ 1 B e0) (hj : ContDiffAt ℝ 1 j e0)
    (hn : ∀ᶠ e in 𝓝 e0, j e < 0 → F e = A e) (hp : ∀ᶠ e in 𝓝 e0, 0 < j e → F e = B e)
    (h0 : ∀ᶠ e in 𝓝 e0, j e = 0 → F e = A e ∧ A e = B e ∧ fderiv ℝ A e = fderiv ℝ B e) : ContDiffAt ℝ 1 F e0 := by
  classical
  have cA : ∀ᶠ e in 𝓝 e0, ContDiffAt ℝ 1 A e := hA.eventually (by simp)
  have cB : ∀ᶠ e in 𝓝 e0, ContDiffAt ℝ 1 B e := hB.eventually (by simp)
  have cj : ∀ᶠ e in 𝓝 e0, ContDiffAt ℝ 1 j e := hj.eventually (by simp)
  obtain ⟨U, hU, hUo, he0⟩ := eventually_nhds_iff.1 (((cA.and (cB.and cj)).and (hn.and hp)).and h0)
  rw [contDiffAt_one_iff]
  refine ⟨fun e => if j e ≤ 0 then fderiv ℝ A e else fderiv ℝ B e, U, hUo.mem_nhds he0, ?_, ?_⟩
  · intro e he
    obtain ⟨⟨⟨a, b, c⟩, n, p⟩, z⟩ := hU e he
    have dA : ContinuousAt (fderiv ℝ A) e := (a.fderiv_right (m := 0) (by simp)).continuousAt
    have dB : ContinuousAt (fderiv ℝ B) e := (b.fderiv_right (m := 0) (by simp)).continuousAt
    apply ContinuousAt.continuousWithinAt
    rcases lt_trichotomy (j e) 0 with hlt | heq | hgt
    · refine dA.congr ?_
      filter_upwards [c.continuousAt.eventually_lt_const hlt] with x hx
      rw [if_pos hx.le]
    · have hs : (if j e ≤ 0 then fderiv ℝ A e else fderiv ℝ B e) = fderiv ℝ A e := if_pos heq.le
      rw [ContinuousAt, hs]
      refine Tendsto.if' dA ?_
      rw [(z heq).2.2]
      exact dB
    · refine dB.congr ?_
      filter_upwards [c.continuousAt.eventually_const_lt hgt] with x hx
      rw [if_neg (not_le.2 hx)]
  · intro e he
    obtain ⟨⟨⟨a, b, c⟩, -⟩, z⟩ := hU e he
    have dA := (a.differentiableAt (by simp)).hasFDerivAt
    have dB := (b.differentiableAt (by simp)).hasFDerivAt
    have hUe : ∀ᶠ x in 𝓝 e, x ∈ U := hUo.mem_nhds he
    rcases lt_trichotomy (j e) 0 with hlt | heq | hgt
    · dsimp only
      rw [if_pos hlt.le]
      refine dA.congr_of_eventuallyEq ?_
      filter_upwards [c.continuousAt.eventually_lt_const hlt, hUe] with x hx hxU
      exact (hU x hxU).1.2.1 hx
    · dsimp only
      rw [if_pos heq.le]
      obtain ⟨zF, zAB, zd⟩ := z heq
      rw [← zd] at dB
      have w1 : HasFDerivWithinAt F (fderiv ℝ A e) ({x | j x ≤ 0} ∩ U) e := by
        refine dA.hasFDerivWithinAt.congr (fun x hx => ?_) zF
        rcases lt_or_eq_of_le (show j x ≤ 0 from hx.1) with h | h
        · exact (hU x hx.2).1.2.1 h
        · exact ((hU x hx.2).2 h).1
      have w2 : HasFDerivWithinAt F (fderiv ℝ A e) ({x | 0 < j x} ∩ U) e := by
        refine dB.hasFDerivWithinAt.congr (fun x hx => (hU x hx.2).1.2.2 hx.1) (zF.trans zAB)
      have w := w1.union w2
      refine w.hasFDerivAt ?_
      filter_upwards [hUe] with x hx
      rcases le_or_gt (j x) 0 with h | h
      · exact Or.inl ⟨h, hx⟩
      · exact Or.inr ⟨h, hx⟩
    · dsimp only
      rw [if_neg (not_le.2 hgt)]
      refine dB.congr_of_eventuallyEq ?_
      filter_upwards [c.continuousAt.eventually_const_lt hgt, hUe] with x hx hxU
      exact (hU x hxU).1.2.2 hx

/-- two families of functions of one variable with equal values and slopes at a moving joint `h`: along any `x` the composed
    functions have equal values and differentials where `x = h` -/
lemma joint_flat {P Q : E → ℝ → ℝ} {x h : E → ℝ} {e0 : E} (hP : ContDiffAt ℝ 1 (Function.uncurry P) (e0, h e0))
    (hQ : ContDiffAt ℝ 1 (Function.uncurry Q) (e0, h e0)) (hx : ContDiffAt ℝ 1 x e0) (hh : ContDiffAt ℝ 1 h e0)
    (hv : ∀ᶠ e in 𝓝 e0, P e (h e) = Q e (h e)) (hd : ∀ᶠ e in 𝓝 e0, deriv (P e) (h e) = deriv (Q e) (h e)) :
    ∀ᶠ e in 𝓝 e0, x e = h e → P e (x e) = Q e (x e) ∧
      fderiv ℝ (fun e => P e (x e)) e = fderiv ℝ (fun e => Q e (x e)) e := by
  have hc : Tendsto (fun e => (e, h e)) (𝓝 e0) (𝓝 (e0, h e0)) := (continuousAt_id.prodMk hh.continuousAt)
  have eP := hc.eventually (hP.eventually (by simp))
  have eQ := hc.eventually (hQ.eventually (by simp))
  have ex := hx.eventually (by simp)
  have eh := hh.eventually (by simp)
  filter_upwards [eP, eQ, ex, eh, hv, hd, hv.eventually_nhds] with e pP pQ px ph v d ve hxe
  refine ⟨by rw [hxe]; exact v, ?_⟩
  have dP : HasFDerivAt (Function.uncurry P) (fderiv ℝ (Function.uncurry P) (e, h e)) (e, h e) :=
    (pP.differentiableAt (by simp)).hasFDerivAt
  have dQ : HasFDerivAt (Function.uncurry Q) (fderiv ℝ (Function.uncurry Q) (e, h e)) (e, h e) :=
    (pQ.differentiableAt (by simp)).hasFDerivAt
  have dx := (px.differentiableAt (by simp)).hasFDerivAt
  have dh := (ph.differentiableAt (by simp)).hasFDerivAt
  generalize fderiv ℝ (Function.uncurry P) (e, h e) = p at dP
  generalize fderiv ℝ (Function.uncurry Q) (e, h e) = q at dQ
  generalize fderiv ℝ x e = x' at dx
  generalize fderiv ℝ h e = h' at dh
  -- slopes in the last argument
  have s1 : ∀ {R : E → ℝ → ℝ} {r : E × ℝ →L[ℝ] ℝ}, HasFDerivAt (Function.uncurry R) r (e, h e) →
      deriv (R e) (h e) = r (0, 1) := by
    intro R r hr
    have : HasDerivAt (fun t : ℝ => ((e, t) : E × ℝ)) (0, 1) (h e) := HasDerivAt.prodMk (hasDerivAt_const _ e) (hasDerivAt_id _)
    exact (hr.comp_hasDerivAt (h e) this).deriv
  have s2 : ∀ {R : E → ℝ → ℝ} {r : E × ℝ →L[ℝ] ℝ}, HasFDerivAt (Function.uncurry R) r (e, h e) →
      ∀ {y : E → ℝ} {y' : E →L[ℝ] ℝ}, HasFDerivAt y y' e → y e = h e →
      HasFDerivAt (fun e => R e (y e)) (r.comp ((ContinuousLinearMap.id ℝ E).prod y')) e := by
    intro R r hr y y' hy hye
    have h1 : HasFDerivAt (fun e => (e, y e)) ((ContinuousLinearMap.id ℝ E).prod y') e := (hasFDerivAt_id e).prodMk hy
    have hr' : HasFDerivAt (Function.uncurry R) r (e, y e) := by rw [hye]; exact hr
    exact hr'.comp e h1
  have k1 : p (0, 1) = q (0, 1) := by rw [← s1 dP, ← s1 dQ]; exact d
  have k2 : p.comp ((ContinuousLinearMap.id ℝ E).prod h') = q.comp ((ContinuousLinearMap.id ℝ E).prod h') := by
    have hp := s2 dP dh rfl
    have hq := s2 dQ dh rfl
    exact hp.unique (hq.congr_of_eventuallyEq ve)
  rw [(s2 dP dx hxe).fderiv, (s2 dQ dx hxe).fderiv]
  ext v
  have a1 : ∀ (r : E × ℝ →L[ℝ] ℝ) (t : ℝ), r (v, t) = r (v, 0) + t * r (0, 1) := by
    intro r t
    rw [← smul_eq_mul, ← map_smul, ← map_add]
    simp
  have k3 := congrArg (fun L : E →L[ℝ] ℝ => L v) k2
  simp only [ContinuousLinearMap.comp_apply, ContinuousLinearMap.prod_apply, ContinuousLinearMap.id_apply] at k3 ⊢
  rw [a1 p, a1 q] at k3 ⊢
  rw [k1] at k3 ⊢
  linarith

/-- three families of functions of one variable, joined with half-weight heaviside factors at two moving joints where values
    and slopes match -/
lemma glue_three {I N R : E → ℝ → ℝ} {x f1 f2 : E → ℝ} {fc : ℝ} {e0 : E} (hx : ContDiffAt ℝ 1 x e0) (h1 : ContDiffAt ℝ 1 f1 e0)
    (h2 : ContDiffAt ℝ 1 f2 e0) (h12 : f1 e0 < f2 e0) (hc : x e0 < fc)
    (hI : x e0 ≤ f1 e0 → ContDiffAt ℝ 1 (Function.uncurry I) (e0, x e0))
    (hN : f1 e0 ≤ x e0 → x e0 ≤ f2 e0 → ContDiffAt ℝ 1 (Function.uncurry N) (e0, x e0))
    (hR : f2 e0 ≤ x e0 → ContDiffAt ℝ 1 (Function.uncurry R) (e0, x e0))
    (v1 : ∀ᶠ e in 𝓝 e0, I e (f1 e) = N e (f1 e)) (d1 : ∀ᶠ e in 𝓝 e0, deriv (I e) (f1 e) = deriv (N e) (f1 e))
    (v2 : ∀ᶠ e in 𝓝 e0, N e (f2 e) = R e (f2 e)) (d2 : ∀ᶠ e in 𝓝 e0, deriv (N e) (f2 e) = deriv (R e) (f2 e)) :
    ContDiffAt ℝ 1 (fun e => I e (x e) * Jnp.heaviside (f1 e - x e) 0.5
      + Jnp.heaviside (x e - f1 e) 0.5 * N e (x e) * Jnp.heaviside (f2 e - x e) 0.5
      + R e (x e) * Jnp.heaviside (x e - f2 e) 0.5 * Jnp.heaviside (fc - x e) 0.5) e0 := by
  have comp : ∀ {G : E → ℝ → ℝ}, ContDiffAt ℝ 1 (Function.uncurry G) (e0, x e0) → ContDiffAt ℝ 1 (fun e => G e (x e)) e0 :=
    fun hG => ContDiffAt.comp (f := fun e => (e, x e)) e0 hG (contDiffAt_id.prodMk hx)
  have e12 : ∀ᶠ e in 𝓝 e0, f1 e < f2 e := h1.continuousAt.eventually_lt h2.continuousAt h12
  have ec : ∀ᶠ e in 𝓝 e0, x e < fc := hx.continuousAt.eventually_lt_const hc
  -- values in the three regions
  have w1 : ∀ e, f1 e < f2 e → x e < f1 e → I e (x e) * Jnp.heaviside (f1 e - x e) 0.5
      + Jnp.heaviside (x e - f1 e) 0.5 * N e (x e) * Jnp.heaviside (f2 e - x e) 0.5
      + R e (x e) * Jnp.heaviside (x e - f2 e) 0.5 * Jnp.heaviside (fc - x e) 0.5 = I e (x e) := by
    intro e a b
    rw [Jnp.heaviside_pos (x := f1 e - x e) (by linarith), Jnp.heaviside_neg (x := x e - f1 e) (by linarith),
      Jnp.heaviside_neg (x := x e - f2 e) (by linarith)]
    ring
  have w2 : ∀ e, f1 e < x e → x e < f2 e → I e (x e) * Jnp.heaviside (f1 e - x e) 0.5
      + Jnp.heaviside (x e - f1 e) 0.5 * N e (x e) * Jnp.heaviside (f2 e - x e) 0.5
      + R e (x e) * Jnp.heaviside (x e - f2 e) 0.5 * Jnp.heaviside (fc - x e) 0.5 = N e (x e) := by
    intro e a b
    rw [Jnp.heaviside_neg (x := f1 e - x e) (by linarith), Jnp.heaviside_pos (x := x e - f1 e) (by linarith),
      Jnp.heaviside_neg (x := x e - f2 e) (by linarith), Jnp.heaviside_pos (x := f2 e - x e) (by linarith)]
    ring
  have w3 : ∀ e, f1 e < f2 e → f2 e < x e → x e < fc → I e (x e) * Jnp.heaviside (f1 e - x e) 0.5
      + Jnp.heaviside (x e - f1 e) 0.5 * N e (x e) * Jnp.heaviside (f2 e - x e) 0.5
      + R e (x e) * Jnp.heaviside (x e - f2 e) 0.5 * Jnp.heaviside (fc - x e) 0.5 = R e (x e) := by
    intro e a b c
    rw [Jnp.heaviside_neg (x := f1 e - x e) (by linarith), Jnp.heaviside_neg (x := f2 e - x e) (by linarith),
      Jnp.heaviside_pos (x := x e - f2 e) (by linarith), Jnp.heaviside_pos (x := fc - x e) (by linarith)]
    ring
  rcases lt_trichotomy (x e0) (f1 e0) with h | h | h
  · refine (comp (hI h.le)).congr_of_eventuallyEq ?_
    filter_upwards [hx.continuousAt.eventually_lt h1.continuousAt h, e12] with e a b
    exact w1 e b a
  · have eI := hI h.le
    have eN := hN h.ge (h.le.trans h12.le)
    have e2 : ∀ᶠ e in 𝓝 e0, x e < f2 e := hx.continuousAt.eventually_lt h2.continuousAt (h ▸ h12)
    refine glue_C1 (A := fun e => I e (x e)) (B := fun e => N e (x e)) (j := fun e => x e - f1 e) (comp eI) (comp eN)
      (hx.sub h1) ?_ ?_ ?_
    · filter_upwards [e12] with e a b
      exact w1 e a (by linarith)
    · filter_upwards [e2] with e a b
      exact w2 e (by linarith) a
    · have hj := joint_flat (h ▸ eI) (h ▸ eN) hx h1 v1 d1
      filter_upwards [hj, e12, e2] with e a b c k
      obtain ⟨a1, a2⟩ := a (by linarith)
      refine ⟨?_, a1, a2⟩
      have k' : f1 e - x e = 0 := by linarith
      rw [k', k, Jnp.heaviside_zero, Jnp.heaviside_neg (x := x e - f2 e) (by linarith),
        Jnp.heaviside_pos (x := f2 e - x e) (by linarith), ← a1]
      ring
  have ef1 : ∀ᶠ e in 𝓝 e0, f1 e < x e := h1.continuousAt.eventually_lt hx.continuousAt h
  rcases lt_trichotomy (x e0) (f2 e0) with h' | h' | h'
  · refine (comp (hN h.le h'.le)).congr_of_eventuallyEq ?_
    filter_upwards [ef1, hx.continuousAt.eventually_lt h2.continuousAt h'] with e a b
    exact w2 e a b
  · have eN := hN h.le h'.le
    have eR := hR h'.ge
    refine glue_C1 (A := fun e => N e (x e)) (B := fun e => R e (x e)) (j := fun e => x e - f2 e) (comp eN) (comp eR)
      (hx.sub h2) ?_ ?_ ?_
    · filter_upwards [ef1] with e a b
      exact w2 e a (by linarith)
    · filter_upwards [e12, ec] with e a c b
      exact w3 e a (by linarith) c
    · have hj := joint_flat (h' ▸ eN) (h' ▸ eR) hx h2 v2 d2
      filter_upwards [hj, e12, ef1, ec] with e a b c g k
      obtain ⟨a1, a2⟩ := a (by linarith)
      refine ⟨?_, a1, a2⟩
      have k' : f2 e - x e = 0 := by linarith
      rw [k', k, Jnp.heaviside_zero, Jnp.heaviside_neg (x := f1 e - x e) (by linarith),
        Jnp.heaviside_pos (x := x e - f1 e) (by linarith), Jnp.heaviside_pos (x := fc - x e) (by linarith), ← a1]
      ring
  · refine (comp (hR h'.le)).congr_of_eventuallyEq ?_
    filter_upwards [e12, h2.continuousAt.eventually_lt hx.continuousAt h', ec] with e a b c
    exact w3 e a b c

end Ripple

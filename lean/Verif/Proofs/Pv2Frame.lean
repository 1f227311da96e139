/-
  Helper lemmas about the frame conversion of PhenomPv2.
-/
import Verif.Model.PhenomPv2
import Verif.Spec.Vec3

namespace Ripple
namespace Pv2
open V3

lemma rotZ_isRotation (a : ℝ) : IsRotation (ROTATEZ a) where
  linear b u c v := by
    simp only [ROTATEZ, comb, Prod.mk.injEq]; refine ⟨by ring, by ring, trivial⟩
  dot u v := by
    simp only [ROTATEZ, V3.dot]
    linear_combination (u.1 * v.1 + u.2.1 * v.2.1) * Real.sin_sq_add_cos_sq a
  cross u v := by
    simp only [ROTATEZ, V3.cross, Prod.mk.injEq]
    refine ⟨by ring, by ring, ?_⟩
    linear_combination -(u.1 * v.2.1 - u.2.1 * v.1) * Real.sin_sq_add_cos_sq a

lemma rotY_isRotation (a : ℝ) : IsRotation (ROTATEY a) where
  linear b u c v := by
    simp only [ROTATEY, comb, Prod.mk.injEq]; refine ⟨by ring, trivial, by ring⟩
  dot u v := by
    simp only [ROTATEY, V3.dot]
    linear_combination (u.1 * v.1 + u.2.2 * v.2.2) * Real.sin_sq_add_cos_sq a
  cross u v := by
    simp only [ROTATEY, V3.cross, Prod.mk.injEq]
    refine ⟨by ring, ?_, by ring⟩
    linear_combination -(u.2.2 * v.1 - u.1 * v.2.2) * Real.sin_sq_add_cos_sq a

lemma arctan2_cos (y x : ℝ) : Real.sqrt (x ^ 2 + y ^ 2) * Real.cos (Jnp.arctan2 y x) = x := by
  have h := Complex.norm_mul_cos_arg (⟨x, y⟩ : ℂ)
  rw [Complex.norm_def, Complex.normSq_mk] at h
  rw [show x ^ 2 + y ^ 2 = x * x + y * y by ring]; exact h

lemma arctan2_sin (y x : ℝ) : Real.sqrt (x ^ 2 + y ^ 2) * Real.sin (Jnp.arctan2 y x) = y := by
  have h := Complex.norm_mul_sin_arg (⟨x, y⟩ : ℂ)
  rw [Complex.norm_def, Complex.normSq_mk] at h
  rw [show x ^ 2 + y ^ 2 = x * x + y * y by ring]; exact h

lemma arctan2_zero : Jnp.arctan2 0 0 = 0 := by
  unfold Jnp.arctan2
  have : (⟨0, 0⟩ : ℂ) = 0 := rfl
  rw [this, Complex.arg_zero]

/-- rotating the point `(x,y)` by minus its polar angle puts it on the positive x axis -/
lemma rot_to_axis (x y z : ℝ) :
    ROTATEZ (-Jnp.arctan2 y x) (x, y, z) = (Real.sqrt (x ^ 2 + y ^ 2), 0, z) := by
  have hc := arctan2_cos y x
  have hs := arctan2_sin y x
  set r := Real.sqrt (x ^ 2 + y ^ 2)
  set a := Jnp.arctan2 y x
  simp only [ROTATEZ, Real.cos_neg, Real.sin_neg, Prod.mk.injEq]
  refine ⟨?_, ?_, trivial⟩
  · rw [← hc, ← hs]; linear_combination r * Real.sin_sq_add_cos_sq a
  · rw [← hc, ← hs]; ring

/-- the rotation that brings `J` on the positive z axis -/
noncomputable def toJ (J : V3) (v : V3) : V3 :=
  ROTATEY (-Real.arccos (J.2.2 / len J)) (ROTATEZ (-Jnp.arctan2 J.2.1 J.1) v)

lemma toJ_isRotation (J : V3) : IsRotation (toJ J) :=
  (rotY_isRotation _).comp (rotZ_isRotation _)

lemma len_sq (u : V3) : len u ^ 2 = u.1 ^ 2 + u.2.1 ^ 2 + u.2.2 ^ 2 := by
  unfold len V3.dot
  rw [Real.sq_sqrt (by nlinarith [mul_self_nonneg u.1, mul_self_nonneg u.2.1, mul_self_nonneg u.2.2])]; ring

lemma len_pos {u : V3} (h : u ≠ 0) : 0 < len u := by
  unfold len
  apply Real.sqrt_pos.2
  unfold V3.dot
  by_contra hcon
  have h1 := mul_self_nonneg u.1
  have h2 := mul_self_nonneg u.2.1
  have h3 := mul_self_nonneg u.2.2
  apply h
  have e1 : u.1 = 0 := mul_self_eq_zero.1 (by linarith)
  have e2 : u.2.1 = 0 := mul_self_eq_zero.1 (by linarith)
  have e3 : u.2.2 = 0 := mul_self_eq_zero.1 (by linarith)
  exact Prod.ext e1 (Prod.ext e2 e3)

lemma toJ_J {J : V3} (h : J ≠ 0) : toJ J J = (0, 0, len J) := by
  have hl := len_pos h
  have hsq := len_sq J
  have hJz : |J.2.2| ≤ len J := by
    apply abs_le_of_sq_le_sq _ hl.le
    rw [hsq]; nlinarith [sq_nonneg J.1, sq_nonneg J.2.1]
  have hc : Real.cos (Real.arccos (J.2.2 / len J)) = J.2.2 / len J := by
    rw [Real.cos_arccos]
    · rw [le_div_iff₀ hl]; linarith [neg_abs_le J.2.2]
    · rw [div_le_iff₀ hl]; linarith [le_abs_self J.2.2]
  have hs : Real.sin (Real.arccos (J.2.2 / len J)) = Real.sqrt (J.1 ^ 2 + J.2.1 ^ 2) / len J := by
    rw [Real.sin_arccos]
    have : 1 - (J.2.2 / len J) ^ 2 = (J.1 ^ 2 + J.2.1 ^ 2) / len J ^ 2 := by
      field_simp; rw [hsq]; ring
    rw [this, Real.sqrt_div (by positivity), Real.sqrt_sq hl.le]
  unfold toJ
  have := rot_to_axis J.1 J.2.1 J.2.2
  rw [show (J.1, J.2.1, J.2.2) = J from rfl] at this
  rw [this]
  have hr : Real.sqrt (J.1 ^ 2 + J.2.1 ^ 2) ^ 2 = J.1 ^ 2 + J.2.1 ^ 2 := Real.sq_sqrt (by positivity)
  set r := Real.sqrt (J.1 ^ 2 + J.2.1 ^ 2)
  simp only [ROTATEY, Real.cos_neg, Real.sin_neg, hc, hs, Prod.mk.injEq]
  refine ⟨by ring, trivial, ?_⟩
  field_simp
  rw [hsq]; linarith

/-- the full rotation: `J` on the z axis, `N` in the half plane `y = 0`, `x ≥ 0` -/
noncomputable def toJN (J N : V3) (v : V3) : V3 :=
  ROTATEZ (-Jnp.arctan2 (toJ J N).2.1 (toJ J N).1) (toJ J v)

lemma toJN_isRotation (J N : V3) : IsRotation (toJN J N) :=
  (rotZ_isRotation _).comp (toJ_isRotation J)

lemma toJN_J {J : V3} (N : V3) (h : J ≠ 0) : toJN J N J = (0, 0, len J) := by
  unfold toJN
  rw [toJ_J h]
  simp [ROTATEZ]

lemma toJN_N (J N : V3) :
    toJN J N N = (Real.sqrt ((toJ J N).1 ^ 2 + (toJ J N).2.1 ^ 2), 0, (toJ J N).2.2) := by
  unfold toJN
  exact rot_to_axis _ _ _

/-- a unit vector is the direction given by its polar angle and azimuth -/
lemma unit_dir (w : V3) (h : V3.dot w w = 1) : w = dir (Real.arccos w.2.2) (Jnp.arctan2 w.2.1 w.1) := by
  simp only [V3.dot] at h
  have hz1 : -1 ≤ w.2.2 := by nlinarith [mul_self_nonneg w.1, mul_self_nonneg w.2.1]
  have hz2 : w.2.2 ≤ 1 := by nlinarith [mul_self_nonneg w.1, mul_self_nonneg w.2.1]
  have hs : Real.sin (Real.arccos w.2.2) = Real.sqrt (w.1 ^ 2 + w.2.1 ^ 2) := by
    rw [Real.sin_arccos]; congr 1; nlinarith
  simp only [dir, hs, arctan2_cos, arctan2_sin, Real.cos_arccos hz1 hz2]

lemma unit_cos (w : V3) (h : V3.dot w w = 1) : Real.cos (Real.arccos w.2.2) = w.2.2 := by
  simp only [V3.dot] at h
  have hz1 : -1 ≤ w.2.2 := by nlinarith [mul_self_nonneg w.1, mul_self_nonneg w.2.1]
  have hz2 : w.2.2 ≤ 1 := by nlinarith [mul_self_nonneg w.1, mul_self_nonneg w.2.1]
  exact Real.cos_arccos hz1 hz2

/-- components of a unit vector orthogonal to `(nx, 0, nz)` in the basis `P`, `Q` -/
lemma pol_fact {nx nz : ℝ} (x : V3) (hn : nx ^ 2 + nz ^ 2 = 1) (hx1 : V3.dot x x = 1)
    (hxN : V3.dot x (nx, 0, nz) = 0) :
    x = comb (Real.cos (Jnp.arctan2 (x.1 * nz - x.2.2 * nx) (-x.2.1))) (0, -1, 0)
      (Real.sin (Jnp.arctan2 (x.1 * nz - x.2.2 * nx) (-x.2.1))) (V3.cross (nx, 0, nz) (0, -1, 0)) := by
  simp only [V3.dot] at hx1 hxN
  have hnorm : Real.sqrt ((-x.2.1) ^ 2 + (x.1 * nz - x.2.2 * nx) ^ 2) = 1 := by
    rw [Real.sqrt_eq_one]
    linear_combination hx1 + (x.1 ^ 2 + x.2.2 ^ 2) * hn - (x.1 * nx + x.2.2 * nz) * hxN
  have hcz := arctan2_cos (x.1 * nz - x.2.2 * nx) (-x.2.1)
  have hsz := arctan2_sin (x.1 * nz - x.2.2 * nx) (-x.2.1)
  rw [hnorm, one_mul] at hcz hsz
  simp only [comb, V3.cross, hcz, hsz]
  refine Prod.ext ?_ (Prod.ext ?_ ?_)
  · simp only; linear_combination -x.1 * hn + nx * hxN
  · simp
  · simp only; linear_combination -x.2.2 * hn + nz * hxN

lemma L2PNR_eq {v eta : ℝ} (hv : 0 < v) :
    L2PNR v eta = eta / v * (1 + (3 / 2 + eta / 6) * v ^ 2 + (27 / 8 - 19 * eta / 8 - eta ^ 2 / 24) * v ^ 4) := by
  unfold L2PNR
  have : (v ^ 2) ^ (0.5 : ℝ) = v := by
    rw [show (0.5 : ℝ) = 1 / 2 by norm_num, ← Real.sqrt_eq_rpow, Real.sqrt_sq hv.le]
  simp only [this]
  field_simp
  ring

/-- the line of sight of `convert_spins` -/
noncomputable def losN (incl phiRef : ℝ) : V3 := dir incl (Real.pi / 2 - phiRef)

lemma totalJ_code {m1 m2 f_ref : ℝ} (h1 : 0 < m1) (h2 : 0 < m2) (hf : 0 < f_ref) (s1 s2 : V3) :
    totalJ gt m1 m2 f_ref s1 s2 =
      (m1 * m1 * s1.1 + m2 * m2 * s2.1, m1 * m1 * s1.2.1 + m2 * m2 * s2.2.1,
        (m1 + m2) * (m1 + m2) * L2PNR ((PI * ((m1 + m2) * gt) * f_ref) ^ ((1 : ℝ) / 3)) (m1 * m2 / ((m1 + m2) * (m1 + m2)))
          + m1 * m1 * s1.2.2 + m2 * m2 * s2.2.2) := by
  have hv : 0 < (PI * ((m1 + m2) * gt) * f_ref) ^ ((1 : ℝ) / 3) := by
    apply Real.rpow_pos_of_pos
    have := gt_pos
    have := Real.pi_pos
    unfold PI
    positivity
  unfold totalJ
  simp only [Prod.mk.injEq]
  refine ⟨by ring, by ring, ?_⟩
  rw [L2PNR_eq hv]
  simp only [PI] at hv ⊢
  unfold orbitalL
  rw [show m1 * m2 / ((m1 + m2) * (m1 + m2)) = m1 * m2 / (m1 + m2) ^ 2 by rw [sq]]
  ring

/-- `convert_spins` in terms of the rotation -/
lemma convert_eq {m1 m2 f_ref : ℝ} (h1 : 0 < m1) (h2 : 0 < m2) (hf : 0 < f_ref) (phiRef incl : ℝ) (s1 s2 : V3) :
    let J := totalJ gt m1 m2 f_ref s1 s2
    let N := losN incl phiRef
    let R := toJN J N
    let X : V3 := (-Real.cos incl * Real.sin phiRef, -Real.cos incl * Real.cos phiRef, Real.sin incl)
    let c := convert_spins m1 m2 f_ref phiRef incl s1.1 s1.2.1 s1.2.2 s2.1 s2.2.1 s2.2.2
    c.thetaJN = Real.arccos (R N).2.2 ∧ c.alpha0 = Jnp.arctan2 (R (0, 0, 1)).2.1 (R (0, 0, 1)).1 ∧
      c.phi_aligned = -Jnp.arctan2 J.2.1 J.1 ∧
      c.zeta_polariz = Jnp.arctan2
        ((R X).1 * (R N).2.2 + (R X).2.1 * 0 + (R X).2.2 * -(R N).1) ((R X).1 * 0 + (R X).2.1 * -1 + (R X).2.2 * 0) ∧
      c.chi1_l = s1.2.2 ∧ c.chi2_l = s2.2.2 := by
  intro J N R X c
  have hJ : J = _ := totalJ_code h1 h2 hf s1 s2
  refine ⟨?_, ?_, ?_, ?_, rfl, rfl⟩
  all_goals
    simp only [R, c]
    rw [hJ]
    rfl

end Pv2
end Ripple

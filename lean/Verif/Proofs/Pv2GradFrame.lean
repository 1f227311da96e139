/-
  The frame conversion of PhenomPv2 depends smoothly on the parameters, up to multiples of 2π in the azimuths.
-/
import Verif.Props.Pv2Frame
import Verif.Proofs.Smooth
import Mathlib.Analysis.SpecialFunctions.Trigonometric.InverseDeriv
import Mathlib.Analysis.SpecialFunctions.Sqrt
import Mathlib.Analysis.SpecialFunctions.Pow.Deriv

namespace Ripple
namespace Pv2
open V3 Filter
open scoped Topology ContDiff

variable {E : Type} [NormedAddCommGroup E] [NormedSpace ℝ E] {e0 : E}

/-- cosine and sine of an azimuth are smooth away from the axis, also across the cut -/
lemma planar_smooth {x y : E → ℝ} (hx : ContDiffAt ℝ ∞ x e0) (hy : ContDiffAt ℝ ∞ y e0) (h0 : 0 < x e0 ^ 2 + y e0 ^ 2) :
    ContDiffAt ℝ ∞ (fun e => Real.cos (Jnp.arctan2 (y e) (x e))) e0 ∧
    ContDiffAt ℝ ∞ (fun e => Real.sin (Jnp.arctan2 (y e) (x e))) e0 := by
  have hs : ContDiffAt ℝ ∞ (fun e => x e ^ 2 + y e ^ 2) e0 := (hx.pow 2).add (hy.pow 2)
  have hr := hs.sqrt h0.ne'
  have hr0 := (Real.sqrt_pos.2 h0).ne'
  have ev := hs.continuousAt.eventually_const_lt h0
  constructor
  · refine (hx.div hr hr0).congr_of_eventuallyEq ?_
    filter_upwards [ev] with e he
    rw [eq_comm, Pi.div_apply, div_eq_iff (Real.sqrt_pos.2 he).ne', mul_comm]
    exact (arctan2_cos _ _).symm
  · refine (hy.div hr hr0).congr_of_eventuallyEq ?_
    filter_upwards [ev] with e he
    rw [eq_comm, Pi.div_apply, div_eq_iff (Real.sqrt_pos.2 he).ne', mul_comm]
    exact (arctan2_sin _ _).symm

lemma cexp_I (x : ℝ) : Complex.exp (Complex.I * ((x : ℝ) : ℂ)) = ((Real.cos x : ℝ) : ℂ) + Complex.I * ((Real.sin x : ℝ) : ℂ) := by
  rw [mul_comm Complex.I, Complex.exp_mul_I]
  push_cast
  ring

lemma unit_smooth {x : E → ℝ} (hc : ContDiffAt ℝ ∞ (fun e => Real.cos (x e)) e0)
    (hs : ContDiffAt ℝ ∞ (fun e => Real.sin (x e)) e0) :
    ContDiffAt ℝ ∞ (fun e => Complex.exp (Complex.I * ((x e : ℝ) : ℂ))) e0 := by
  simp only [cexp_I]
  exact (Complex.ofRealCLM.contDiff.contDiffAt.comp e0 hc).add
    (contDiffAt_const.mul (Complex.ofRealCLM.contDiff.contDiffAt.comp e0 hs))

lemma rotZ_smooth {a : E → ℝ} {v : E → V3} (hc : ContDiffAt ℝ ∞ (fun e => Real.cos (a e)) e0)
    (hs : ContDiffAt ℝ ∞ (fun e => Real.sin (a e)) e0) (hv : ContDiffAt ℝ ∞ v e0) :
    ContDiffAt ℝ ∞ (fun e => ROTATEZ (a e) (v e)) e0 :=
  ((hv.fst.mul hc).sub (hv.snd.fst.mul hs)).prodMk (((hv.fst.mul hs).add (hv.snd.fst.mul hc)).prodMk hv.snd.snd)

lemma rotY_smooth {a : E → ℝ} {v : E → V3} (hc : ContDiffAt ℝ ∞ (fun e => Real.cos (a e)) e0)
    (hs : ContDiffAt ℝ ∞ (fun e => Real.sin (a e)) e0) (hv : ContDiffAt ℝ ∞ v e0) :
    ContDiffAt ℝ ∞ (fun e => ROTATEY (a e) (v e)) e0 :=
  ((hv.fst.mul hc).add (hv.snd.snd.mul hs)).prodMk (hv.snd.fst.prodMk ((hv.fst.neg.mul hs).add (hv.snd.snd.mul hc)))

lemma neg_trig {a : E → ℝ} (h : ContDiffAt ℝ ∞ (fun e => Real.cos (a e)) e0 ∧ ContDiffAt ℝ ∞ (fun e => Real.sin (a e)) e0) :
    ContDiffAt ℝ ∞ (fun e => Real.cos (-a e)) e0 ∧ ContDiffAt ℝ ∞ (fun e => Real.sin (-a e)) e0 := by
  simp only [Real.cos_neg, Real.sin_neg]
  exact ⟨h.1, h.2.neg⟩

lemma len_pos_of_plane {J : V3} (h0 : 0 < J.1 ^ 2 + J.2.1 ^ 2) : 0 < len J ∧ J.2.2 ^ 2 < len J ^ 2 := by
  have := len_sq J
  have hl : 0 < len J ^ 2 := by rw [this]; positivity
  refine ⟨lt_of_le_of_ne (Real.sqrt_nonneg _) fun h => ?_, by linarith⟩
  change 0 = len J at h
  rw [← h] at hl
  norm_num at hl

lemma len_smooth {J : E → V3} (hJ : ContDiffAt ℝ ∞ J e0) (h0 : 0 < len (J e0)) : ContDiffAt ℝ ∞ (fun e => len (J e)) e0 := by
  unfold len V3.dot
  refine ContDiffAt.sqrt (((hJ.fst.mul hJ.fst).add (hJ.snd.fst.mul hJ.snd.fst)).add (hJ.snd.snd.mul hJ.snd.snd)) ?_
  exact (Real.sqrt_pos.1 h0).ne'

lemma toJ_smooth {J v : E → V3} (hJ : ContDiffAt ℝ ∞ J e0) (hv : ContDiffAt ℝ ∞ v e0)
    (h0 : 0 < (J e0).1 ^ 2 + (J e0).2.1 ^ 2) : ContDiffAt ℝ ∞ (fun e => toJ (J e) (v e)) e0 := by
  obtain ⟨l0, l1⟩ := len_pos_of_plane h0
  have hq : ContDiffAt ℝ ∞ (fun e => (J e).2.2 / len (J e)) e0 := hJ.snd.snd.div (len_smooth hJ l0) l0.ne'
  have hlt : ((J e0).2.2 / len (J e0)) ^ 2 < 1 := by
    rw [div_pow, div_lt_one (by positivity)]
    exact l1
  have ha : ContDiffAt ℝ ∞ (fun e => -Real.arccos ((J e).2.2 / len (J e))) e0 :=
    ((Real.contDiffAt_arccos (x := (J e0).2.2 / len (J e0)) (by intro h; rw [h] at hlt; norm_num at hlt)
      (by intro h; rw [h] at hlt; norm_num at hlt)).comp e0 hq).neg
  obtain ⟨zc, zs⟩ := neg_trig (planar_smooth hJ.fst hJ.snd.fst h0)
  exact rotY_smooth ha.cos ha.sin (rotZ_smooth zc zs hv)

lemma toJN_smooth {J N v : E → V3} (hJ : ContDiffAt ℝ ∞ J e0) (hN : ContDiffAt ℝ ∞ N e0) (hv : ContDiffAt ℝ ∞ v e0)
    (h0 : 0 < (J e0).1 ^ 2 + (J e0).2.1 ^ 2) (h1 : 0 < (toJ (J e0) (N e0)).1 ^ 2 + (toJ (J e0) (N e0)).2.1 ^ 2) :
    ContDiffAt ℝ ∞ (fun e => toJN (J e) (N e) (v e)) e0 := by
  have hn := toJ_smooth hJ hN h0
  obtain ⟨zc, zs⟩ := neg_trig (planar_smooth hn.fst hn.snd.fst h1)
  exact rotZ_smooth zc zs (toJ_smooth hJ hv h0)

/-- the line of sight is off the axis if it is not along the total angular momentum -/
lemma plane_of_cross {J N : V3} (hJ : J ≠ 0) (h : V3.cross J N ≠ 0) : 0 < (toJ J N).1 ^ 2 + (toJ J N).2.1 ^ 2 := by
  by_contra hcon
  have e1 : (toJ J N).1 = 0 := by nlinarith [sq_nonneg (toJ J N).1, sq_nonneg (toJ J N).2.1]
  have e2 : (toJ J N).2.1 = 0 := by nlinarith [sq_nonneg (toJ J N).1, sq_nonneg (toJ J N).2.1]
  have hR := toJ_isRotation J
  have hc := hR.cross J N
  rw [toJ_J hJ] at hc
  have hz : toJ J (V3.cross J N) = 0 := by
    rw [hc]
    simp [V3.cross, e1, e2]
  have hd := hR.dot (V3.cross J N) (V3.cross J N)
  rw [hz] at hd
  have hl := len_pos h
  rw [len, ← hd] at hl
  simp [V3.dot] at hl

/-- the orbital angular momentum is off the axis if it is not along the total angular momentum -/
lemma plane_L {J N : V3} (h0 : 0 < J.1 ^ 2 + J.2.1 ^ 2) :
    0 < (toJN J N (0, 0, 1)).1 ^ 2 + (toJN J N (0, 0, 1)).2.1 ^ 2 := by
  obtain ⟨l0, l1⟩ := len_pos_of_plane h0
  have hJ : J ≠ 0 := by rintro rfl; simp at h0
  have hR := toJN_isRotation J N
  have d1 := hR.dot (0, 0, 1) (0, 0, 1)
  have d2 := hR.dot J (0, 0, 1)
  rw [toJN_J N hJ] at d2
  simp only [V3.dot] at d1 d2
  generalize toJN J N (0, 0, 1) = w at *
  have e : w.2.2 = J.2.2 / len J := by rw [eq_div_iff l0.ne']; linarith
  have : w.2.2 ^ 2 < 1 := by rw [e, div_pow, div_lt_one (by positivity)]; exact l1
  nlinarith

lemma totalJ_smooth {a b : E → ℝ} {u v : E → V3} (ha : ContDiffAt ℝ ∞ a e0) (hb : ContDiffAt ℝ ∞ b e0)
    (hu : ContDiffAt ℝ ∞ u e0) (hv : ContDiffAt ℝ ∞ v e0) (a0 : 0 < a e0) (b0 : 0 < b e0) {f_ref : ℝ} (hf : 0 < f_ref) :
    ContDiffAt ℝ ∞ (fun e => totalJ gt (a e) (b e) f_ref (u e) (v e)) e0 := by
  have hg := gt_pos
  have hpi := Real.pi_pos
  have hM : ContDiffAt ℝ ∞ (fun e => a e + b e) e0 := ha.add hb
  have M0 : a e0 + b e0 ≠ 0 := by positivity
  have hp : ContDiffAt ℝ ∞ (fun e => (Real.pi * ((a e + b e) * gt) * f_ref) ^ ((1 : ℝ) / 3)) e0 :=
    ContDiffAt.rpow_const_of_ne (by fun_prop) (by positivity)
  have p0 : (Real.pi * ((a e0 + b e0) * gt) * f_ref) ^ ((1 : ℝ) / 3) ≠ 0 := by positivity
  have hn : ContDiffAt ℝ ∞ (fun e => a e * b e / (a e + b e) ^ 2) e0 := (ha.mul hb).div (hM.pow 2) (pow_ne_zero 2 M0)
  have u1 := hu.fst
  have u2 := hu.snd.fst
  have u3 := hu.snd.snd
  have v1 := hv.fst
  have v2 := hv.snd.fst
  have v3 := hv.snd.snd
  unfold totalJ orbitalL
  dsimp only
  refine ContDiffAt.prodMk (by fun_prop) (ContDiffAt.prodMk (by fun_prop) (ContDiffAt.add (ContDiffAt.add (ContDiffAt.mul
    (ContDiffAt.div (by fun_prop) hp p0) ?_) (by fun_prop)) (by fun_prop)))
  fun_prop

/-- The frame conversion is smooth if the contributions of the two bodies to the effective precession spin differ, the total
    angular momentum is not along the orbital one and the line of sight not along the total one. -/
lemma conv_smooth {a b phi inc : E → ℝ} {u v : E → V3} (ha : ContDiffAt ℝ ∞ a e0) (hb : ContDiffAt ℝ ∞ b e0)
    (hu : ContDiffAt ℝ ∞ u e0) (hv : ContDiffAt ℝ ∞ v e0) (hphi : ContDiffAt ℝ ∞ phi e0) (hinc : ContDiffAt ℝ ∞ inc e0)
    (a0 : 0 < a e0) (b0 : 0 < b e0) {f_ref : ℝ} (hf : 0 < f_ref)
    (hJ : 0 < (totalJ gt (a e0) (b e0) f_ref (u e0) (v e0)).1 ^ 2 + (totalJ gt (a e0) (b e0) f_ref (u e0) (v e0)).2.1 ^ 2)
    (hN : V3.cross (totalJ gt (a e0) (b e0) f_ref (u e0) (v e0)) (losN (inc e0) (phi e0)) ≠ 0)
    (hchip : (4 * a e0 + 3 * b e0) * a e0 / ((4 * b e0 + 3 * a e0) * b e0) * √((u e0).1 ^ 2 + (u e0).2.1 ^ 2)
      ≠ √((v e0).1 ^ 2 + (v e0).2.1 ^ 2)) :
    let c := fun e => conv (a e) (b e) f_ref (phi e) (inc e) (u e) (v e)
    ContDiffAt ℝ ∞ (fun e => (c e).chip) e0 ∧ 0 < (c e0).chip ∧ ContDiffAt ℝ ∞ (fun e => (c e).thetaJN) e0 ∧
      ContDiffAt ℝ ∞ (fun e => Complex.exp (Complex.I * (((c e).alpha0 : ℝ) : ℂ))) e0 ∧
      ContDiffAt ℝ ∞ (fun e => Complex.exp (2 * Complex.I * (((c e).phi_aligned : ℝ) : ℂ))) e0 ∧
      ContDiffAt ℝ ∞ (fun e => Real.cos (2 * (c e).zeta_polariz)) e0 ∧
      ContDiffAt ℝ ∞ (fun e => Real.sin (2 * (c e).zeta_polariz)) e0 := by
  intro c
  have J := totalJ_smooth ha hb hu hv a0 b0 hf
  have N : ContDiffAt ℝ ∞ (fun e => losN (inc e) (phi e)) e0 := by
    unfold losN dir
    exact ContDiffAt.prodMk (by fun_prop) (ContDiffAt.prodMk (by fun_prop) (by fun_prop))
  have X : ContDiffAt ℝ ∞ (fun e => ((-Real.cos (inc e) * Real.sin (phi e), -Real.cos (inc e) * Real.cos (phi e),
      Real.sin (inc e)) : V3)) e0 := ContDiffAt.prodMk (by fun_prop) (ContDiffAt.prodMk (by fun_prop) (by fun_prop))
  have hJ0 : totalJ gt (a e0) (b e0) f_ref (u e0) (v e0) ≠ 0 := by intro h; rw [h] at hJ; simp at hJ
  have hP := plane_of_cross hJ0 hN
  have RN := toJN_smooth J N N hJ hP
  have RX := toJN_smooth J N X hJ hP
  have RL := toJN_smooth J N (v := fun _ => (0, 0, 1)) contDiffAt_const hJ hP
  have pos : ∀ᶠ e in 𝓝 e0, 0 < a e ∧ 0 < b e :=
    (ha.continuousAt.eventually_const_lt a0).and (hb.continuousAt.eventually_const_lt b0)
  -- precession spin
  have s1 : ContDiffAt ℝ ∞ (fun e => (u e).1 ^ 2 + (u e).2.1 ^ 2) e0 := (hu.fst.pow 2).add (hu.snd.fst.pow 2)
  have s2 : ContDiffAt ℝ ∞ (fun e => (v e).1 ^ 2 + (v e).2.1 ^ 2) e0 := (hv.fst.pow 2).add (hv.snd.fst.pow 2)
  have hk : ContDiffAt ℝ ∞ (fun e => (4 * a e + 3 * b e) * a e / ((4 * b e + 3 * a e) * b e)) e0 :=
    ContDiffAt.div (by fun_prop) (by fun_prop) (by positivity)
  have k0 : 0 < (4 * a e0 + 3 * b e0) * a e0 / ((4 * b e0 + 3 * a e0) * b e0) := by positivity
  have cv : ∀ e, 0 < a e → 0 < b e → (c e).chip = max ((4 * a e + 3 * b e) * a e / ((4 * b e + 3 * a e) * b e) *
      √((u e).1 ^ 2 + (u e).2.1 ^ 2)) (√((v e).1 ^ 2 + (v e).2.1 ^ 2)) := fun e p q => C57_value _ _ _ _ _ p q
  have q1 := Real.continuous_sqrt.continuousAt.comp s1.continuousAt
  have q2 := Real.continuous_sqrt.continuousAt.comp s2.continuousAt
  have C : ContDiffAt ℝ ∞ (fun e => (c e).chip) e0 ∧ 0 < (c e0).chip := by
    rw [cv e0 a0 b0]
    rcases lt_or_gt_of_ne hchip with h | h
    · have p2 : 0 < √((v e0).1 ^ 2 + (v e0).2.1 ^ 2) := lt_of_le_of_lt (by positivity) h
      refine ⟨(s2.sqrt (Real.sqrt_pos.1 p2).ne').congr_of_eventuallyEq ?_, lt_max_of_lt_right p2⟩
      filter_upwards [pos, (hk.continuousAt.mul q1).eventually_lt q2 h] with e he hl
      rw [cv e he.1 he.2]
      exact max_eq_right hl.le
    · have p1 : 0 < (4 * a e0 + 3 * b e0) * a e0 / ((4 * b e0 + 3 * a e0) * b e0) * √((u e0).1 ^ 2 + (u e0).2.1 ^ 2) :=
        lt_of_le_of_lt (Real.sqrt_nonneg _) h
      have p2 := pos_of_mul_pos_right p1 k0.le
      refine ⟨(hk.mul (s1.sqrt (Real.sqrt_pos.1 p2).ne')).congr_of_eventuallyEq ?_, lt_max_of_lt_left p1⟩
      filter_upwards [pos, q2.eventually_lt (hk.continuousAt.mul q1) h] with e he hl
      rw [cv e he.1 he.2]
      exact max_eq_left hl.le
  -- angles
  have V := fun e (he : 0 < a e ∧ 0 < b e) => convert_eq he.1 he.2 hf (phi e) (inc e) (u e) (v e)
  have dN : ∀ i p, V3.dot (losN i p) (losN i p) = 1 := by
    intro i p
    simp only [losN, dir, V3.dot]
    linear_combination Real.sin i ^ 2 * Real.sin_sq_add_cos_sq (Real.pi / 2 - p) + Real.sin_sq_add_cos_sq i
  have dX : ∀ i p, V3.dot ((-Real.cos i * Real.sin p, -Real.cos i * Real.cos p, Real.sin i) : V3)
      (-Real.cos i * Real.sin p, -Real.cos i * Real.cos p, Real.sin i) = 1 := by
    intro i p
    simp only [V3.dot]
    linear_combination Real.cos i ^ 2 * Real.sin_sq_add_cos_sq p + Real.sin_sq_add_cos_sq i
  have dXN : ∀ i p, V3.dot ((-Real.cos i * Real.sin p, -Real.cos i * Real.cos p, Real.sin i) : V3) (losN i p) = 0 := by
    intro i p
    simp only [losN, dir, V3.dot, Real.cos_pi_div_two_sub, Real.sin_pi_div_two_sub]
    linear_combination -Real.cos i * Real.sin i * Real.sin_sq_add_cos_sq p
  have hR := toJN_isRotation (totalJ gt (a e0) (b e0) f_ref (u e0) (v e0)) (losN (inc e0) (phi e0))
  have f1 := (hR.dot _ _).trans (dN (inc e0) (phi e0))
  have f2 := (hR.dot _ _).trans (dX (inc e0) (phi e0))
  have f3 := (hR.dot _ _).trans (dXN (inc e0) (phi e0))
  have fN := toJN_N (totalJ gt (a e0) (b e0) f_ref (u e0) (v e0)) (losN (inc e0) (phi e0))
  have f4 : (toJN (totalJ gt (a e0) (b e0) f_ref (u e0) (v e0)) (losN (inc e0) (phi e0)) (losN (inc e0) (phi e0))).2.1 = 0 := by
    rw [fN]
  have f5 : 0 < (toJN (totalJ gt (a e0) (b e0) f_ref (u e0) (v e0)) (losN (inc e0) (phi e0)) (losN (inc e0) (phi e0))).1 := by
    rw [fN]; exact Real.sqrt_pos.2 hP
  have fL := plane_L (N := losN (inc e0) (phi e0)) hJ
  obtain ⟨wN, eN⟩ : ∃ w : E → V3, ∀ e, toJN (totalJ gt (a e) (b e) f_ref (u e) (v e)) (losN (inc e) (phi e))
    (losN (inc e) (phi e)) = w e := ⟨_, fun _ => rfl⟩
  obtain ⟨wX, eX⟩ : ∃ w : E → V3, ∀ e, toJN (totalJ gt (a e) (b e) f_ref (u e) (v e)) (losN (inc e) (phi e))
    (-Real.cos (inc e) * Real.sin (phi e), -Real.cos (inc e) * Real.cos (phi e), Real.sin (inc e)) = w e := ⟨_, fun _ => rfl⟩
  obtain ⟨wL, eL⟩ : ∃ w : E → V3, ∀ e, toJN (totalJ gt (a e) (b e) f_ref (u e) (v e)) (losN (inc e) (phi e))
    (0, 0, 1) = w e := ⟨_, fun _ => rfl⟩
  simp only [eN] at RN f1 f3 f4 f5
  simp only [eX] at RX f2 f3
  simp only [eL] at RL fL
  simp only [V3.dot] at f1 f2 f3
  rw [f4] at f1 f3
  refine ⟨C.1, C.2, ?_, ?_, ?_, ?_⟩
  · have : (wN e0).2.2 ^ 2 < 1 := by nlinarith
    refine ((Real.contDiffAt_arccos (x := (wN e0).2.2) (by intro h; rw [h] at this; norm_num at this)
      (by intro h; rw [h] at this; norm_num at this)).comp e0 RN.snd.snd).congr_of_eventuallyEq ?_
    filter_upwards [pos] with e he
    have := (V e he).1
    rw [eN] at this
    exact this
  · obtain ⟨p, q⟩ := planar_smooth RL.fst RL.snd.fst fL
    refine (unit_smooth p q).congr_of_eventuallyEq ?_
    filter_upwards [pos] with e he
    have := (V e he).2.1
    rw [eL] at this
    exact congrArg (fun x : ℝ => Complex.exp (Complex.I * (x : ℂ))) this
  · obtain ⟨p, q⟩ := neg_trig (planar_smooth J.fst J.snd.fst hJ)
    refine ((unit_smooth p q).pow 2).congr_of_eventuallyEq ?_
    filter_upwards [pos] with e he
    have := (V e he).2.2.1
    rw [← Complex.exp_nat_mul]
    change Complex.exp (2 * Complex.I * (((c e).phi_aligned : ℝ) : ℂ)) = _
    rw [show (c e).phi_aligned = _ from this]
    congr 1
    push_cast
    ring
  · have hz : 0 < ((wX e0).1 * 0 + (wX e0).2.1 * -1 + (wX e0).2.2 * 0) ^ 2 +
        ((wX e0).1 * (wN e0).2.2 + (wX e0).2.1 * 0 + (wX e0).2.2 * -(wN e0).1) ^ 2 := by
      have : ((wX e0).1 * 0 + (wX e0).2.1 * -1 + (wX e0).2.2 * 0) ^ 2 +
        ((wX e0).1 * (wN e0).2.2 + (wX e0).2.1 * 0 + (wX e0).2.2 * -(wN e0).1) ^ 2 = 1 := by
        linear_combination f2 + ((wX e0).1 ^ 2 + (wX e0).2.2 ^ 2) * f1 - ((wX e0).1 * (wN e0).1 + (wX e0).2.2 * (wN e0).2.2) * f3
      rw [this]; norm_num
    obtain ⟨p, q⟩ := planar_smooth
      (x := fun e => (wX e).1 * 0 + (wX e).2.1 * -1 + (wX e).2.2 * 0)
      (y := fun e => (wX e).1 * (wN e).2.2 + (wX e).2.1 * 0 + (wX e).2.2 * -(wN e).1)
      (((RX.fst.mul contDiffAt_const).add (RX.snd.fst.mul contDiffAt_const)).add (RX.snd.snd.mul contDiffAt_const))
      (((RX.fst.mul RN.snd.snd).add (RX.snd.fst.mul contDiffAt_const)).add (RX.snd.snd.mul RN.fst.neg)) hz
    have ez : ∀ᶠ e in 𝓝 e0, (c e).zeta_polariz = Jnp.arctan2
        ((wX e).1 * (wN e).2.2 + (wX e).2.1 * 0 + (wX e).2.2 * -(wN e).1)
        ((wX e).1 * 0 + (wX e).2.1 * -1 + (wX e).2.2 * 0) := by
      filter_upwards [pos] with e he
      have := (V e he).2.2.2.1
      rw [eN, eX] at this
      exact this
    constructor
    · refine ((contDiffAt_const (c := (2 : ℝ)).mul (p.pow 2)).sub (contDiffAt_const (c := (1 : ℝ)))).congr_of_eventuallyEq ?_
      filter_upwards [ez] with e he
      rw [he, Real.cos_two_mul]
    · refine ((contDiffAt_const (c := (2 : ℝ)).mul q).mul p).congr_of_eventuallyEq ?_
      filter_upwards [ez] with e he
      rw [he, Real.sin_two_mul]

end Pv2
end Ripple

/-
  Helper lemmas: symmetries of the PhenomPv2 generator (rotation about the orbital axis, total mass).
-/
import Verif.Proofs.Pv2Norm
import Verif.Proofs.PhenomDScale
import Mathlib.Analysis.Calculus.Deriv.Mul
import Mathlib.Analysis.Calculus.Deriv.Comp

namespace Ripple
namespace Pv2
open V3 PhenomD

lemma rotZ_congr {a b : ℝ} (hc : Real.cos a = Real.cos b) (hs : Real.sin a = Real.sin b) : ROTATEZ a = ROTATEZ b := by
  funext v; simp only [ROTATEZ, hc, hs]

lemma arctan2_rot {x y d : ℝ} (h : x ≠ 0 ∨ y ≠ 0) :
    let x' := x * Real.cos d - y * Real.sin d
    let y' := x * Real.sin d + y * Real.cos d
    Real.cos (Jnp.arctan2 y' x') = Real.cos (Jnp.arctan2 y x + d) ∧
    Real.sin (Jnp.arctan2 y' x') = Real.sin (Jnp.arctan2 y x + d) := by
  intro x' y'
  have hr : x' ^ 2 + y' ^ 2 = x ^ 2 + y ^ 2 := by
    simp only [x', y']; linear_combination (x ^ 2 + y ^ 2) * Real.sin_sq_add_cos_sq d
  have hpos : 0 < Real.sqrt (x ^ 2 + y ^ 2) := by
    apply Real.sqrt_pos.2
    rcases h with h | h
    · have := pow_pos (abs_pos.2 h) 2; rw [sq_abs] at this; nlinarith [sq_nonneg y]
    · have := pow_pos (abs_pos.2 h) 2; rw [sq_abs] at this; nlinarith [sq_nonneg x]
  have c' := arctan2_cos y' x'
  have s' := arctan2_sin y' x'
  have c := arctan2_cos y x
  have s := arctan2_sin y x
  rw [hr] at c' s'
  constructor
  · apply mul_left_cancel₀ hpos.ne'
    rw [c', Real.cos_add]
    simp only [x']
    linear_combination -Real.cos d * c + Real.sin d * s
  · apply mul_left_cancel₀ hpos.ne'
    rw [s', Real.sin_add]
    simp only [y']
    linear_combination -Real.cos d * s - Real.sin d * c

lemma toJ_rot {J : V3} (h : J.1 ≠ 0 ∨ J.2.1 ≠ 0) (d : ℝ) (v : V3) : toJ (ROTATEZ d J) (ROTATEZ d v) = toJ J v := by
  obtain ⟨hc, hs⟩ := arctan2_rot (d := d) h
  have hlen : len (ROTATEZ d J) = len J := (C54_length d J).1
  unfold toJ
  rw [hlen]
  have e : ROTATEZ (-Jnp.arctan2 (ROTATEZ d J).2.1 (ROTATEZ d J).1) =
      ROTATEZ (-(Jnp.arctan2 J.2.1 J.1 + d)) := by
    apply rotZ_congr
    · rw [Real.cos_neg, Real.cos_neg]; exact hc
    · rw [Real.sin_neg, Real.sin_neg]; exact congrArg Neg.neg hs
  rw [e, (C54_additive _ _ v).1, show -(Jnp.arctan2 J.2.1 J.1 + d) + d = -Jnp.arctan2 J.2.1 J.1 by ring]
  rfl

lemma toJN_rot {J : V3} (h : J.1 ≠ 0 ∨ J.2.1 ≠ 0) (d : ℝ) (N v : V3) :
    toJN (ROTATEZ d J) (ROTATEZ d N) (ROTATEZ d v) = toJN J N v := by
  unfold toJN
  rw [toJ_rot h, toJ_rot h]

/-- rotating both spins and the line of sight about the orbital axis -/
lemma conv_rot {m1 m2 f_ref : ℝ} (h1 : 0 < m1) (h2 : 0 < m2) (hf : 0 < f_ref) (phiRef incl : ℝ) (s1 s2 : V3) (d : ℝ)
    (hJ : (totalJ gt m1 m2 f_ref s1 s2).1 ≠ 0 ∨ (totalJ gt m1 m2 f_ref s1 s2).2.1 ≠ 0) :
    let c := conv m1 m2 f_ref phiRef incl s1 s2
    let c' := conv m1 m2 f_ref (phiRef - d) incl (ROTATEZ d s1) (ROTATEZ d s2)
    c'.chip = c.chip ∧ c'.thetaJN = c.thetaJN ∧ c'.alpha0 = c.alpha0 ∧ c'.zeta_polariz = c.zeta_polariz ∧
    Real.cos c'.phi_aligned = Real.cos (c.phi_aligned - d) ∧ Real.sin c'.phi_aligned = Real.sin (c.phi_aligned - d) := by
  intro c c'
  have hchip : c'.chip = c.chip := C57_rotation f_ref phiRef incl s1 s2 h1 h2 d f_ref (phiRef - d) incl
  obtain ⟨e1, e2, e3, e4, -, -⟩ := convert_eq h1 h2 hf phiRef incl s1 s2
  obtain ⟨e1', e2', e3', e4', -, -⟩ := convert_eq h1 h2 hf (phiRef - d) incl (ROTATEZ d s1) (ROTATEZ d s2)
  have hJr : totalJ gt m1 m2 f_ref (ROTATEZ d s1) (ROTATEZ d s2) = ROTATEZ d (totalJ gt m1 m2 f_ref s1 s2) := by
    simp only [totalJ, ROTATEZ, Prod.mk.injEq]
    refine ⟨by ring, by ring, trivial⟩
  have hNr : losN incl (phiRef - d) = ROTATEZ d (losN incl phiRef) := by
    simp only [losN, dir, ROTATEZ, Prod.mk.injEq]
    rw [show Real.pi / 2 - (phiRef - d) = Real.pi / 2 - phiRef + d by ring, Real.cos_add, Real.sin_add]
    refine ⟨by ring, by ring, trivial⟩
  have hXr : ((-Real.cos incl * Real.sin (phiRef - d), -Real.cos incl * Real.cos (phiRef - d), Real.sin incl) : V3) =
      ROTATEZ d (-Real.cos incl * Real.sin phiRef, -Real.cos incl * Real.cos phiRef, Real.sin incl) := by
    simp only [ROTATEZ, Prod.mk.injEq, Real.sin_sub, Real.cos_sub]
    refine ⟨by ring, by ring, trivial⟩
  have hz : ((0, 0, 1) : V3) = ROTATEZ d (0, 0, 1) := by simp [ROTATEZ]
  rw [hJr] at e1' e2' e3' e4'
  rw [hNr, toJN_rot hJ] at e1'
  rw [hNr, hz, toJN_rot hJ] at e2'
  rw [hNr, hXr, toJN_rot hJ, toJN_rot hJ] at e4'
  have h3 : c'.phi_aligned = _ := e3'
  have h3' : c.phi_aligned = _ := e3
  obtain ⟨hc, hs⟩ := arctan2_rot (d := d) hJ
  refine ⟨hchip, e1'.trans e1.symm, e2'.trans e2.symm, e4'.trans e4.symm, ?_, ?_⟩
  · rw [h3, h3', Real.cos_neg, show -Jnp.arctan2 (totalJ gt m1 m2 f_ref s1 s2).2.1 (totalJ gt m1 m2 f_ref s1 s2).1 - d =
      -(Jnp.arctan2 (totalJ gt m1 m2 f_ref s1 s2).2.1 (totalJ gt m1 m2 f_ref s1 s2).1 + d) by ring, Real.cos_neg]
    exact hc
  · rw [h3, h3', Real.sin_neg, show -Jnp.arctan2 (totalJ gt m1 m2 f_ref s1 s2).2.1 (totalJ gt m1 m2 f_ref s1 s2).1 - d =
      -(Jnp.arctan2 (totalJ gt m1 m2 f_ref s1 s2).2.1 (totalJ gt m1 m2 f_ref s1 s2).1 + d) by ring, Real.sin_neg]
    exact congrArg Neg.neg hs

lemma twist_smul (f : ℝ) (h k : ℂ) (eta chi1 chi2 chip M : ℝ) (a : AngCoeffs) (Y : Fin 5 → ℂ) (ao eo : ℝ) :
    PhenomPCoreTwistUp f (k * h) eta chi1 chi2 chip M a Y ao eo =
      (k * (PhenomPCoreTwistUp f h eta chi1 chi2 chip M a Y ao eo).1,
        k * (PhenomPCoreTwistUp f h eta chi1 chi2 chip M a Y ao eo).2) := by
  rw [twist_unfold, twist_unfold]
  simp only [Prod.mk.injEq]
  constructor <;> ring

lemma rot_smul (z : ℝ) (k : ℂ) (h : ℂ × ℂ) : rotP z (k * h.1, k * h.2) = (k * (rotP z h).1, k * (rotP z h).2) := by
  simp only [rotP, Prod.mk.injEq]
  constructor <;> ring

lemma hDs_phase (Q : QNM) (m1 m2 : ℝ) (s1 s2 : V3) (chip D thr f : ℝ) {p p' d : ℝ}
    (hc : Real.cos p' = Real.cos (p - d)) (hs : Real.sin p' = Real.sin (p - d)) :
    hDs Q m1 m2 s1 s2 chip p' D thr f =
      Complex.exp (-(2 * Complex.I * (d : ℂ))) * hDs Q m1 m2 s1 s2 chip p D thr f := by
  have he : Complex.exp ((p' : ℂ) * Complex.I) = Complex.exp (((p - d : ℝ) : ℂ) * Complex.I) := by
    rw [Complex.exp_mul_I, Complex.exp_mul_I, ← Complex.ofReal_cos, ← Complex.ofReal_sin, ← Complex.ofReal_cos,
      ← Complex.ofReal_sin, hc, hs]
  unfold hDs
  generalize Phase f (thetaP m1 m2 s1 s2) (get_coeffs (thetaP m1 m2 s1 s2)) (tfP Q m1 m2 s1 s2 chip) = P
  have e1 : ∀ y : ℝ, Complex.exp (-Complex.I * ((P - 2 * y : ℝ) : ℂ)) =
      Complex.exp (-Complex.I * (P : ℂ)) * Complex.exp ((y : ℂ) * Complex.I) ^ 2 := by
    intro y
    rw [← Complex.exp_nat_mul, ← Complex.exp_add]
    congr 1
    push_cast
    ring
  have e2 : Complex.exp (-(2 * Complex.I * (d : ℂ))) * Complex.exp ((p : ℂ) * Complex.I) ^ 2 =
      Complex.exp (((p - d : ℝ) : ℂ) * Complex.I) ^ 2 := by
    rw [← Complex.exp_nat_mul, ← Complex.exp_nat_mul, ← Complex.exp_add]
    congr 1
    push_cast
    ring
  rw [e1, e1, he, ← e2]
  ring

/-! ### total mass -/

section
variable {k : ℝ} (hk : 0 < k)
include hk

lemma totalJ_scale {m1 m2 : ℝ} (h1 : 0 < m1) (h2 : 0 < m2) (f_ref : ℝ) (s1 s2 : V3) :
    totalJ gt (k * m1) (k * m2) (f_ref / k) s1 s2 =
      (k ^ 2 * (totalJ gt m1 m2 f_ref s1 s2).1, k ^ 2 * (totalJ gt m1 m2 f_ref s1 s2).2.1,
        k ^ 2 * (totalJ gt m1 m2 f_ref s1 s2).2.2) := by
  have ev : Real.pi * ((k * m1 + k * m2) * gt) * (f_ref / k) = Real.pi * ((m1 + m2) * gt) * f_ref := by
    field_simp
  have ee : k * m1 * (k * m2) / (k * m1 + k * m2) ^ 2 = m1 * m2 / (m1 + m2) ^ 2 := by field_simp
  simp only [totalJ, orbitalL]
  rw [ev, ee]
  refine Prod.ext (by simp only []; ring) (Prod.ext (by simp only []; ring) ?_)
  simp only []
  ring

lemma arctan2_scale (y x : ℝ) : Jnp.arctan2 (k ^ 2 * y) (k ^ 2 * x) = Jnp.arctan2 y x := by
  unfold Jnp.arctan2
  have h : (0 : ℝ) < k ^ 2 := by positivity
  generalize k ^ 2 = r at *
  rw [← Complex.arg_real_mul (⟨x, y⟩ : ℂ) h]
  congr 1
  apply Complex.ext <;> simp

lemma toJ_scale (J v : V3) : toJ (k ^ 2 * J.1, k ^ 2 * J.2.1, k ^ 2 * J.2.2) v = toJ J v := by
  have ha := arctan2_scale hk J.2.1 J.1
  have hl : len (k ^ 2 * J.1, k ^ 2 * J.2.1, k ^ 2 * J.2.2) = k ^ 2 * len J := by
    unfold len V3.dot
    simp only []
    rw [show k ^ 2 * J.1 * (k ^ 2 * J.1) + k ^ 2 * J.2.1 * (k ^ 2 * J.2.1) + k ^ 2 * J.2.2 * (k ^ 2 * J.2.2) =
      (k ^ 2) ^ 2 * (J.1 * J.1 + J.2.1 * J.2.1 + J.2.2 * J.2.2) by ring, Real.sqrt_mul (by positivity),
      Real.sqrt_sq (by positivity)]
  unfold toJ
  simp only []
  rw [ha, hl, mul_div_mul_left _ _ (by positivity)]

lemma conv_scale {m1 m2 f_ref : ℝ} (h1 : 0 < m1) (h2 : 0 < m2) (hf : 0 < f_ref) (phiRef incl : ℝ) (s1 s2 : V3) :
    conv (k * m1) (k * m2) (f_ref / k) phiRef incl s1 s2 = conv m1 m2 f_ref phiRef incl s1 s2 := by
  have h1' : 0 < k * m1 := by positivity
  have h2' : 0 < k * m2 := by positivity
  have hf' : 0 < f_ref / k := by positivity
  obtain ⟨e1, e2, e3, e4, e5, e6⟩ := convert_eq h1 h2 hf phiRef incl s1 s2
  obtain ⟨e1', e2', e3', e4', e5', e6'⟩ := convert_eq h1' h2' hf' phiRef incl s1 s2
  have hchip : (conv (k * m1) (k * m2) (f_ref / k) phiRef incl s1 s2).chip = (conv m1 m2 f_ref phiRef incl s1 s2).chip := by
    rw [C57_value _ _ _ _ _ h1' h2', C57_value _ _ _ _ _ h1 h2]
    congr 2
    field_simp
  have hN : ∀ N v, toJN (totalJ gt (k * m1) (k * m2) (f_ref / k) s1 s2) N v = toJN (totalJ gt m1 m2 f_ref s1 s2) N v := by
    intro N v
    rw [totalJ_scale hk h1 h2]
    unfold toJN
    rw [toJ_scale hk, toJ_scale hk]
  simp only [hN] at e1' e2' e4'
  have hp : (conv (k * m1) (k * m2) (f_ref / k) phiRef incl s1 s2).phi_aligned = (conv m1 m2 f_ref phiRef incl s1 s2).phi_aligned := by
    refine Eq.trans e3' (Eq.trans ?_ e3.symm)
    rw [totalJ_scale hk h1 h2]
    exact congrArg Neg.neg (arctan2_scale hk _ _)
  have ext : ∀ a b : Converted, a.chi1_l = b.chi1_l → a.chi2_l = b.chi2_l → a.chip = b.chip → a.thetaJN = b.thetaJN →
      a.alpha0 = b.alpha0 → a.phi_aligned = b.phi_aligned → a.zeta_polariz = b.zeta_polariz → a = b := by
    rintro ⟨⟩ ⟨⟩ h h h h h h h; simp_all
  exact ext _ _ (e5'.trans e5.symm) (e6'.trans e6.symm) hchip (e1'.trans e1.symm) (e2'.trans e2.symm) hp (e4'.trans e4.symm)

lemma tfP_scale (Q : QNM) (m1 m2 : ℝ) (s1 s2 : V3) (chip : ℝ) :
    tfP Q (k * m1) (k * m2) s1 s2 chip = scaleTF k (tfP Q m1 m2 s1 s2 chip) := by
  have habs : ∀ z : ℝ, |z / k| = |z| / k := fun z => by rw [abs_div, abs_of_pos hk]
  have e0 : k * m1 + k * m2 = k * (m1 + m2) := by ring
  have ee : k * m1 * (k * m2) / (k * (m1 + m2) * (k * (m1 + m2))) = m1 * m2 / ((m1 + m2) * (m1 + m2)) := by
    rw [show k * m1 * (k * m2) = k ^ 2 * (m1 * m2) by ring,
      show k * (m1 + m2) * (k * (m1 + m2)) = k ^ 2 * ((m1 + m2) * (m1 + m2)) by ring, mul_div_mul_left _ _ (by positivity)]
  have eq : k * m1 / (k * (m1 + m2)) = m1 / (m1 + m2) := mul_div_mul_left _ _ hk.ne'
  have e : (k * m1 + k * m2) * gt = (m1 + m2) * gt * k := by ring
  have eM : k * m1 * gt + k * m2 * gt = (m1 * gt + m2 * gt) * k := by ring
  have hfs : ∀ c1 c2, FinalSpin_inplane (k * m1) (k * m2) c1 c2 chip = FinalSpin_inplane m1 m2 c1 c2 chip := by
    intro c1 c2
    simp only [FinalSpin_inplane, e0, ee, eq]
  have hfd : ∀ c1 c2, phP_get_fRD_fdamp Q (k * m1) (k * m2) c1 c2 chip =
      ((phP_get_fRD_fdamp Q m1 m2 c1 c2 chip).1 / k, (phP_get_fRD_fdamp Q m1 m2 c1 c2 chip).2 / k) := by
    intro c1 c2
    simp only [phP_get_fRD_fdamp, hfs, sc_eta hk]
    simp only [eM, div_mul_eq_div_div]
  have hco : get_coeffs (thetaP (k * m1) (k * m2) s1 s2) = get_coeffs (thetaP m1 m2 s1 s2) := sc_coeffs hk (thetaP m1 m2 s1 s2)
  unfold tfP
  rw [hco]
  generalize get_coeffs (thetaP m1 m2 s1 s2) 5 = g2
  generalize get_coeffs (thetaP m1 m2 s1 s2) 6 = g3
  unfold phP_get_transition_frequencies scaleTF
  simp only [thetaP, hfd, e, div_mul_eq_div_div]
  ext <;> simp only []
  · ring
  · split_ifs
    · rw [← habs]; congr 1; ring
    · rw [← habs]; congr 1; ring

lemma t0P_scale (Q : QNM) (m1 m2 : ℝ) (s1 s2 : V3) (chip : ℝ) :
    t0P Q (k * m1) (k * m2) s1 s2 chip = k * t0P Q m1 m2 s1 s2 chip := by
  unfold t0P
  rw [tfP_scale hk]
  have hco : get_coeffs (thetaP (k * m1) (k * m2) s1 s2) = get_coeffs (thetaP m1 m2 s1 s2) := sc_coeffs hk (thetaP m1 m2 s1 s2)
  rw [hco]
  have hfun : (fun f => -Phase f (thetaP (k * m1) (k * m2) s1 s2) (get_coeffs (thetaP m1 m2 s1 s2))
      (scaleTF k (tfP Q m1 m2 s1 s2 chip))) =
      fun f => (fun y => -Phase y (thetaP m1 m2 s1 s2) (get_coeffs (thetaP m1 m2 s1 s2)) (tfP Q m1 m2 s1 s2 chip)) (k * f) := by
    funext f
    have := sc_Phase hk (k * f) (thetaP m1 m2 s1 s2) (get_coeffs (thetaP m1 m2 s1 s2)) (tfP Q m1 m2 s1 s2 chip)
    rw [mul_div_cancel_left₀ _ hk.ne'] at this
    exact congrArg Neg.neg this
  generalize (fun y => -Phase y (thetaP m1 m2 s1 s2) (get_coeffs (thetaP m1 m2 s1 s2)) (tfP Q m1 m2 s1 s2 chip)) = g at hfun ⊢
  rw [hfun, deriv_comp_mul_left]
  simp only [scaleTF, smul_eq_mul]
  rw [mul_div_cancel₀ _ hk.ne']
  ring

lemma twP_scale (Q : QNM) {m1 m2 : ℝ} (h1 : 0 < m1) (h2 : 0 < m2) (s1 s2 : V3) (D tc f_ref : ℝ) (c : Converted) (thr f : ℝ) :
    twP Q (k * m1) (k * m2) s1 s2 D tc (f_ref / k) c (thr / k) (f / k) =
      ((k : ℂ) ^ 2 * (twP Q m1 m2 s1 s2 D tc f_ref c thr f).1, (k : ℂ) ^ 2 * (twP Q m1 m2 s1 s2 D tc f_ref c thr f).2) := by
  have e0 : k * m2 + k * m1 = k * (m2 + m1) := by ring
  have ee : k * m2 * (k * m1) / (k * (m2 + m1) * (k * (m2 + m1))) = m2 * m1 / ((m2 + m1) * (m2 + m1)) := by
    field_simp
  have ea : angP (k * m1) (k * m2) s1 s2 c.chip = angP m1 m2 s1 s2 c.chip := by
    unfold angP
    congr 1
    · exact mul_div_mul_left _ _ hk.ne'
    · rw [mul_div_mul_left _ _ hk.ne', e0, show k * m2 * s2.2.2 + k * m1 * s1.2.2 = k * (m2 * s2.2.2 + m1 * s1.2.2) by ring,
        mul_div_mul_left _ _ hk.ne']
  have ew : PI * (k * (m2 + m1) * gt) * (f_ref / k) = PI * ((m2 + m1) * gt) * f_ref := by field_simp
  have hco : get_coeffs (thetaP (k * m1) (k * m2) s1 s2) = get_coeffs (thetaP m1 m2 s1 s2) := sc_coeffs hk (thetaP m1 m2 s1 s2)
  have hh : hDs Q (k * m1) (k * m2) s1 s2 c.chip c.phi_aligned D (thr / k) (f / k) =
      (k : ℂ) ^ 2 * hDs Q m1 m2 s1 s2 c.chip c.phi_aligned D thr f := by
    unfold hDs
    rw [tfP_scale hk, hco]
    have ha := sc_ampAt hk (thetaP m1 m2 s1 s2) (get_coeffs (thetaP m1 m2 s1 s2)) (tfP Q m1 m2 s1 s2 c.chip) D thr f
    have hp := sc_Phase hk f (thetaP m1 m2 s1 s2) (get_coeffs (thetaP m1 m2 s1 s2)) (tfP Q m1 m2 s1 s2 c.chip)
    have es : scaleMass k (thetaP m1 m2 s1 s2) = thetaP (k * m1) (k * m2) s1 s2 := rfl
    rw [es] at ha hp
    rw [ha, hp]
    push_cast
    ring
  have hcor : corrP Q (k * m1) (k * m2) s1 s2 c.chip tc (f / k) = corrP Q m1 m2 s1 s2 c.chip tc f := by
    unfold corrP
    rw [t0P_scale hk, show 2 * PI * (f / k) * (k * t0P Q m1 m2 s1 s2 c.chip) = 2 * PI * f * t0P Q m1 m2 s1 s2 c.chip by
      field_simp]
    congr 2
    have hkc : (k : ℂ) ≠ 0 := by exact_mod_cast hk.ne'
    rw [e0]
    push_cast
    field_simp
  have ht : ∀ h a Y ao eo, PhenomPCoreTwistUp (f / k) h (m2 * m1 / ((m2 + m1) * (m2 + m1))) s2.2.2 s1.2.2 c.chip (k * (m2 + m1)) a Y ao eo =
      PhenomPCoreTwistUp f h (m2 * m1 / ((m2 + m1) * (m2 + m1))) s2.2.2 s1.2.2 c.chip (m2 + m1) a Y ao eo := by
    intro h a Y ao eo
    rw [twist_unfold, twist_unfold, show f / k * gt * (k * (m2 + m1)) = f * gt * (m2 + m1) by field_simp]
  simp only [twP]
  rw [e0, ee, ea, ew, hh, hcor, ht, twist_smul]
  simp only [Prod.mk.injEq]
  constructor <;> ring

end
end Pv2
end Ripple

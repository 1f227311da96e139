/-
  The twisted-up PhenomPv2 polarisations depend continuously differentiably on the parameters.
-/
import Verif.Proofs.Pv2GradTf
import Verif.Proofs.Pv2GradFrame

namespace Ripple
open PhenomD Pv2 V3 Filter XAS
open scoped Topology ContDiff

variable {E : Type} [NormedAddCommGroup E] [NormedSpace ℝ E]

/-- the ten coefficients of the angle series are smooth -/
structure AngFam (a : E → AngCoeffs) (e0 : E) : Prop where
  a1 : ContDiffAt ℝ ∞ (fun e => (a e).alphacoeff1) e0
  a2 : ContDiffAt ℝ ∞ (fun e => (a e).alphacoeff2) e0
  a3 : ContDiffAt ℝ ∞ (fun e => (a e).alphacoeff3) e0
  a4 : ContDiffAt ℝ ∞ (fun e => (a e).alphacoeff4) e0
  a5 : ContDiffAt ℝ ∞ (fun e => (a e).alphacoeff5) e0
  b1 : ContDiffAt ℝ ∞ (fun e => (a e).epsiloncoeff1) e0
  b2 : ContDiffAt ℝ ∞ (fun e => (a e).epsiloncoeff2) e0
  b3 : ContDiffAt ℝ ∞ (fun e => (a e).epsiloncoeff3) e0
  b4 : ContDiffAt ℝ ∞ (fun e => (a e).epsiloncoeff4) e0
  b5 : ContDiffAt ℝ ∞ (fun e => (a e).epsiloncoeff5) e0

lemma nnloCoeffs_smooth {q chil chip : E → ℝ} {e0 : E} (hq : ContDiffAt ℝ ∞ q e0) (hl : ContDiffAt ℝ ∞ chil e0)
    (hp : ContDiffAt ℝ ∞ chip e0) (q0 : 0 < q e0) :
    AngFam (fun e => ComputeNNLOanglecoeffs (q e) (chil e) (chip e)) e0 := by
  have n1 : (1 + q e0) ≠ 0 := by positivity
  have h2 : ContDiffAt ℝ ∞ (fun e => q e / (1 + q e)) e0 := hq.div (contDiffAt_const.add hq) n1
  have h1 : ContDiffAt ℝ ∞ (fun e => 1 / (1 + q e)) e0 := contDiffAt_const.div (contDiffAt_const.add hq) n1
  have z2 : q e0 / (1 + q e0) ≠ 0 := by positivity
  have z1 : 1 / (1 + q e0) ≠ 0 := by positivity
  unfold ComputeNNLOanglecoeffs
  dsimp only
  obtain ⟨m2, e2⟩ : ∃ m : E → ℝ, ∀ e, q e / (1 + q e) = m e := ⟨_, fun _ => rfl⟩
  obtain ⟨m1, e1⟩ : ∃ m : E → ℝ, ∀ e, 1 / (1 + q e) = m e := ⟨_, fun _ => rfl⟩
  simp only [e2] at h2 z2 ⊢
  simp only [e1] at h1 z1 ⊢
  have hd : ContDiffAt ℝ ∞ (fun e => m1 e - m2 e) e0 := h1.sub h2
  have he : ContDiffAt ℝ ∞ (fun e => m1 e * m2 e) e0 := h1.mul h2
  have ze : m1 e0 * m2 e0 ≠ 0 := mul_ne_zero z1 z2
  obtain ⟨dm, ed⟩ : ∃ m : E → ℝ, ∀ e, m1 e - m2 e = m e := ⟨_, fun _ => rfl⟩
  obtain ⟨eta, ee⟩ : ∃ m : E → ℝ, ∀ e, m1 e * m2 e = m e := ⟨_, fun _ => rfl⟩
  simp only [ed] at hd ⊢
  simp only [ee] at he ze ⊢
  have i2 : ContDiffAt ℝ ∞ (fun e => (m2 e)⁻¹) e0 := h2.inv z2
  have ie : ContDiffAt ℝ ∞ (fun e => (eta e)⁻¹) e0 := he.inv ze
  constructor <;> dsimp only <;> simp only [div_eq_mul_inv, mul_inv] <;> fun_prop

lemma nnlo_fam {c1 c2 c3 c4 c5 w : E → ℝ} {e0 : E} (h1 : ContDiffAt ℝ ∞ c1 e0) (h2 : ContDiffAt ℝ ∞ c2 e0)
    (h3 : ContDiffAt ℝ ∞ c3 e0) (h4 : ContDiffAt ℝ ∞ c4 e0) (h5 : ContDiffAt ℝ ∞ c5 e0) (hw : ContDiffAt ℝ ∞ w e0)
    (w0 : 0 < w e0) : ContDiffAt ℝ ∞ (fun e => nnlo (c1 e) (c2 e) (c3 e) (c4 e) (c5 e) (w e)) e0 := by
  have hp : ContDiffAt ℝ ∞ (fun e => w e ^ ((1 : ℝ) / 3)) e0 := hw.rpow_const_of_ne w0.ne'
  have p0 : w e0 ^ ((1 : ℝ) / 3) ≠ 0 := (Real.rpow_pos_of_pos w0 _).ne'
  unfold nnlo
  exact ((((h1.div hw w0.ne').add (h2.div (hp.mul hp) (mul_ne_zero p0 p0))).add (h3.div hp p0)).add
    (h4.mul (hw.log w0.ne'))).add (h5.mul hp)

namespace PBase
variable {m1 m2 : E → ℝ} {s1 s2 : E → V3} {chip : E → ℝ} {e0 : E}

lemma omega (h : PBase m1 m2 s1 s2 chip e0) {f : E → ℝ} (hf : ContDiffAt ℝ ∞ f e0) (f0 : 0 < f e0) :
    ContDiffAt ℝ ∞ (fun e => Real.pi * ((m1 e + m2 e) * gt) * f e) e0 ∧ 0 < Real.pi * ((m1 e0 + m2 e0) * gt) * f e0 := by
  have k1 := h.cm1
  have k2 := h.cm2
  have := h.pos
  have := h.pos1
  have := gt_pos
  have := Real.pi_pos
  exact ⟨by fun_prop, by positivity⟩

lemma ang (h : PBase m1 m2 s1 s2 chip e0) : AngFam (fun e => angP (m1 e) (m2 e) (s1 e) (s2 e) (chip e)) e0 := by
  have k1 := h.cm1
  have k2 := h.cm2
  have p2 := h.pos
  have p1 := h.pos1
  have z1 := h.cs1.snd.snd
  have z2 := h.cs2.snd.snd
  have hq : ContDiffAt ℝ ∞ (fun e => m1 e / m2 e) e0 := k1.div k2 p2.ne'
  have q0 : 0 < m1 e0 / m2 e0 := by positivity
  exact nnloCoeffs_smooth hq (((contDiffAt_const.add hq).div hq q0.ne').mul (ContDiffAt.div (by fun_prop) (k2.add k1)
    (by positivity))) h.cchip q0

lemma alpha_fam (h : PBase m1 m2 s1 s2 chip e0) {f : E → ℝ} (hf : ContDiffAt ℝ ∞ f e0) (f0 : 0 < f e0) :
    ContDiffAt ℝ ∞ (fun e => alphaS (angP (m1 e) (m2 e) (s1 e) (s2 e) (chip e)) (Real.pi * ((m1 e + m2 e) * gt) * f e)) e0 := by
  have A := h.ang
  obtain ⟨w, w0⟩ := h.omega hf f0
  exact nnlo_fam A.a1 A.a2 A.a3 A.a4 A.a5 w w0

lemma eps_fam (h : PBase m1 m2 s1 s2 chip e0) {f : E → ℝ} (hf : ContDiffAt ℝ ∞ f e0) (f0 : 0 < f e0) :
    ContDiffAt ℝ ∞ (fun e => epsS (angP (m1 e) (m2 e) (s1 e) (s2 e) (chip e)) (Real.pi * ((m1 e + m2 e) * gt) * f e)) e0 := by
  have A := h.ang
  obtain ⟨w, w0⟩ := h.omega hf f0
  exact nnlo_fam A.b1 A.b2 A.b3 A.b4 A.b5 w w0

lemma LplusS_fam (h : PBase m1 m2 s1 s2 chip e0) {f : E → ℝ} (hf : ContDiffAt ℝ ∞ f e0) (f0 : 0 < f e0) :
    ContDiffAt ℝ ∞ (fun e => LplusS (m1 e) (m2 e) (s1 e) (s2 e) (f e)) e0 := by
  obtain ⟨w, w0⟩ := h.omega hf f0
  have hv : ContDiffAt ℝ ∞ (fun e => vOf (m1 e) (m2 e) (f e)) e0 := w.rpow_const_of_ne w0.ne'
  have v0 : vOf (m1 e0) (m2 e0) (f e0) ≠ 0 := (Real.rpow_pos_of_pos w0 _).ne'
  have k1 := h.cm1
  have k2 := h.cm2
  have p2 := h.pos
  have p1 := h.pos1
  have z1 := h.cs1.snd.snd
  have z2 := h.cs2.snd.snd
  have M0 : (m1 e0 + m2 e0) ^ 2 ≠ 0 := by positivity
  have he : ContDiffAt ℝ ∞ (fun e => m1 e * m2 e / (m1 e + m2 e) ^ 2) e0 := (k1.mul k2).div ((k1.add k2).pow 2) M0
  unfold LplusS orbitalL
  refine ContDiffAt.add (ContDiffAt.mul (ContDiffAt.div (by fun_prop) hv v0) ?_)
    (ContDiffAt.div (by fun_prop) ((k1.add k2).pow 2) M0)
  fun_prop

lemma cone_fam (h : PBase m1 m2 s1 s2 chip e0) {f : E → ℝ} (hf : ContDiffAt ℝ ∞ f e0) (f0 : 0 < f e0)
    (c0 : 0 < chip e0) (hL : LplusS (m1 e0) (m2 e0) (s1 e0) (s2 e0) (f e0) ≠ 0) :
    ContDiffAt ℝ ∞ (fun e => coneAngle (m1 e) (m2 e) (s1 e) (s2 e) (chip e) (f e)) e0 := by
  have k1 := h.cm1
  have k2 := h.cm2
  have p2 := h.pos
  have p1 := h.pos1
  have hq : ContDiffAt ℝ ∞ (fun e => m1 e / (m1 e + m2 e)) e0 := k1.div (k1.add k2) (by positivity)
  have hx : chip e0 * (m1 e0 / (m1 e0 + m2 e0)) ^ 2 / LplusS (m1 e0) (m2 e0) (s1 e0) (s2 e0) (f e0) ≠ 0 :=
    div_ne_zero (by positivity) hL
  exact Real.contDiff_arctan.contDiffAt.comp (g := Real.arctan) e0 ((contDiffAt_abs hx).comp (g := fun x : ℝ => |x|) e0
    ((h.cchip.mul (hq.pow 2)).div (h.LplusS_fam hf f0) hL))

end PBase

namespace PFam
variable {Q : QNM} {m1 m2 : E → ℝ} {s1 s2 : E → V3} {chip : E → ℝ} {e0 : E}

/-- The twisted-up polarisations are continuously differentiable, for any smooth family of angles of the source frame that
    enters through `exp(i alpha0)`, `exp(2i phi_aligned)` and the angle between line of sight and total angular momentum. -/
lemma twP_fam {c : E → Converted} (h : PFam Q m1 m2 s1 s2 (fun e => (c e).chip) e0) {D tc f thr : E → ℝ} {f_ref : ℝ}
    (hD : ContDiffAt ℝ ∞ D e0) (D0 : 0 < D e0) (ht : ContDiffAt ℝ ∞ tc e0) (hf : ContDiffAt ℝ ∞ f e0) (f0 : 0 < f e0)
    (hr : 0 < f_ref) (hthr : ∀ᶠ e in 𝓝 e0, f e < thr e) (c0 : 0 < (c e0).chip)
    (hth : ContDiffAt ℝ ∞ (fun e => (c e).thetaJN) e0)
    (hal : ContDiffAt ℝ ∞ (fun e => Complex.exp (Complex.I * (((c e).alpha0 : ℝ) : ℂ))) e0)
    (hph : ContDiffAt ℝ ∞ (fun e => Complex.exp (2 * Complex.I * (((c e).phi_aligned : ℝ) : ℂ))) e0)
    (hL : LplusS (m1 e0) (m2 e0) (s1 e0) (s2 e0) (f e0) ≠ 0) :
    ContDiffAt ℝ 1 (fun e => (twP Q (m1 e) (m2 e) (s1 e) (s2 e) (D e) (tc e) f_ref (c e) (thr e) (f e)).1) e0 ∧
    ContDiffAt ℝ 1 (fun e => (twP Q (m1 e) (m2 e) (s1 e) (s2 e) (D e) (tc e) f_ref (c e) (thr e) (f e)).2) e0 := by
  have le : (1 : WithTop ℕ∞) ≤ ∞ := by exact_mod_cast le_top
  have hev : ∀ᶠ e in 𝓝 e0, 0 < m2 e ∧ m2 e < m1 e ∧ 0 < f e ∧ LplusS (m1 e) (m2 e) (s1 e) (s2 e) (f e) ≠ 0 :=
    (h.cm2.continuousAt.eventually_const_lt h.pos).and ((h.cm2.continuousAt.eventually_lt h.cm1.continuousAt h.lt).and
      ((hf.continuousAt.eventually_const_lt f0).and ((h.LplusS_fam hf f0).continuousAt.eventually_ne hL)))
  have hb := (h.cone_fam hf f0 c0 hL).of_le le
  have ha := ((h.alpha_fam hf f0).sub (h.alpha_fam (f := fun _ => f_ref) contDiffAt_const hr)).of_le le
  have he := ((h.eps_fam hf f0).sub (h.eps_fam (f := fun _ => f_ref) contDiffAt_const hr)).of_le le
  have hH := h.hDs_C1 (pa := fun e => (c e).phi_aligned) (hph.of_le le) hD hf f0 D0 hthr
  have hK := (h.corr_smooth ht hf).of_le le
  have hcb := ofReal_fam ((hb.div_const 2).cos)
  have hsb := ofReal_fam ((hb.div_const 2).sin)
  have hct := ofReal_fam (((hth.of_le le).div_const 2).cos)
  have hst := ofReal_fam (((hth.of_le le).div_const 2).sin)
  have hU := (((contDiffAt_const (c := Complex.I)).mul (ofReal_fam ha)).cexp).mul (hal.of_le le)
  have hU' := hU.inv (mul_ne_zero (Complex.exp_ne_zero _) (Complex.exp_ne_zero _))
  have hE := ((((contDiffAt_const (c := -(2 * Complex.I))).mul (ofReal_fam he)).cexp).mul hH).div_const 2
  have n := contDiffAt_const (𝕜 := ℝ) (x := e0) (n := 1) (c := ((Real.sqrt (5 / (4 * Real.pi)) : ℝ) : ℂ))
  have two := contDiffAt_const (𝕜 := ℝ) (x := e0) (n := 1) (c := (2 : ℂ))
  have hT := n.mul ((((hU.mul ((hcb.mul hst).pow 2)).sub (two.mul ((hcb.mul hst).mul (hsb.mul hct)))).add
    (hU'.mul ((hsb.mul hct).pow 2))).pow 2)
  have hT' := n.mul ((((hU'.mul ((hsb.mul hst).pow 2)).add (two.mul ((hsb.mul hst).mul (hcb.mul hct)))).add
    (hU.mul ((hcb.mul hct).pow 2))).pow 2)
  have core : ∀ u A B : ℂ, u ≠ 0 → (A * u - B * u⁻¹) ^ 4 = (u ^ 2 * A ^ 2 - 2 * (A * B) + (u ^ 2)⁻¹ * B ^ 2) ^ 2 := by
    intro u A B hu; field_simp; ring
  have uu : ∀ e, Complex.exp (Complex.I * ((azimuth (m1 e) (m2 e) (s1 e) (s2 e) (c e) f_ref (f e) : ℝ) : ℂ) / 2) ^ 2 =
      Complex.exp (Complex.I * ((alphaS (angP (m1 e) (m2 e) (s1 e) (s2 e) (c e).chip) (Real.pi * ((m1 e + m2 e) * gt) * f e)
        - alphaS (angP (m1 e) (m2 e) (s1 e) (s2 e) (c e).chip) (Real.pi * ((m1 e + m2 e) * gt) * f_ref) : ℝ) : ℂ)) *
      Complex.exp (Complex.I * (((c e).alpha0 : ℝ) : ℂ)) := by
    intro e
    rw [← Complex.exp_nat_mul, ← Complex.exp_add]
    congr 1
    unfold azimuth
    push_cast
    ring
  have eT : ∀ (e : E) (x y z w : ℂ),
      let u := Complex.exp (Complex.I * ((azimuth (m1 e) (m2 e) (s1 e) (s2 e) (c e) f_ref (f e) : ℝ) : ℂ) / 2)
      (x * u * y - z * u⁻¹ * w) ^ 4 = (u ^ 2 * (x * y) ^ 2 - 2 * (x * y * (z * w)) + (u ^ 2)⁻¹ * (z * w) ^ 2) ^ 2 := by
    intro e x y z w u
    rw [show x * u * y - z * u⁻¹ * w = x * y * u - z * w * u⁻¹ by ring]
    exact core u _ _ (Complex.exp_ne_zero _)
  have eT' : ∀ (e : E) (x y z w : ℂ),
      let u := Complex.exp (Complex.I * ((azimuth (m1 e) (m2 e) (s1 e) (s2 e) (c e) f_ref (f e) : ℝ) : ℂ) / 2)
      (z * u⁻¹ * w + x * u * y) ^ 4 = ((u ^ 2)⁻¹ * (z * w) ^ 2 + 2 * (z * w * (x * y)) + u ^ 2 * (x * y) ^ 2) ^ 2 := by
    intro e x y z w u
    rw [show z * u⁻¹ * w + x * u * y = x * y * u - (-(z * w)) * u⁻¹ by ring, core u _ _ (Complex.exp_ne_zero _)]
    ring
  constructor
  · refine ((hE.mul (hT.add hT')).mul hK).congr_of_eventuallyEq ?_
    filter_upwards [hev] with x hx
    rw [twP_formula Q (s1 x) (s2 x) (D x) (tc x) f_ref (c x) _ (f x) hx.1 hx.2.1.le hx.2.2.1 hx.2.2.2]
    dsimp only
    rw [eT, eT', uu]
    rfl
  · refine ((hE.mul ((contDiffAt_const (c := Complex.I)).mul (hT.sub hT'))).mul hK).congr_of_eventuallyEq ?_
    filter_upwards [hev] with x hx
    rw [twP_formula Q (s1 x) (s2 x) (D x) (tc x) f_ref (c x) _ (f x) hx.1 hx.2.1.le hx.2.2.1 hx.2.2.2]
    dsimp only
    rw [eT, eT', uu]
    rfl

end PFam
end Ripple

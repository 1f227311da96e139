/-
  Helper lemmas about the IMRPhenomXAS phase: smoothness and slopes of the three pieces, solutions of the collocation systems.
-/
import Verif.Proofs.XASGen
import Verif.Proofs.PhenomD
import Mathlib.LinearAlgebra.Vandermonde

namespace Ripple
open Set

lemma Jnp.solve_spec {n : ℕ} {A : Matrix (Fin n) (Fin n) ℝ} (h : A.det ≠ 0) (b : Fin n → ℝ) :
    A.mulVec (Jnp.solve A b) = b := by
  unfold Jnp.solve
  rw [Matrix.mulVec_mulVec, Matrix.mul_nonsing_inv _ (isUnit_iff_ne_zero.2 h), Matrix.one_mulVec]

namespace XAS
open PhenomD (Ms cd_rpow cd_zpow)

/-! ### smoothness -/

lemma cd_ins (theta : Theta) (T : Table) {x : ℝ} (hx : 0 < x) :
    ContDiffAt ℝ 1 (fun y => get_inspiral_phase y theta T) x := by
  have h1 := fun p => cd_rpow hx p
  have h2 : ContDiffAt ℝ 1 (fun y : ℝ => Real.log y) x := contDiffAt_id.log hx.ne'
  unfold get_inspiral_phase
  simp only
  fun_prop

lemma cd_int (theta : Theta) (T : Table) (a b c : ℝ) {x : ℝ} (hx : 0 < x) :
    ContDiffAt ℝ 1 (fun y => get_intermediate_raw_phase y theta T a b c) x := by
  have h1 : ContDiffAt ℝ 1 (fun y : ℝ => y ^ (-1 : ℤ)) x := cd_zpow hx 1
  have h2 : ContDiffAt ℝ 1 (fun y : ℝ => y ^ (-2 : ℤ)) x := cd_zpow hx 2
  have h3 : ContDiffAt ℝ 1 (fun y : ℝ => y ^ (-3 : ℤ)) x := cd_zpow hx 3
  have h4 : ContDiffAt ℝ 1 (fun y : ℝ => Real.log y) x := contDiffAt_id.log hx.ne'
  have h5 : ∀ r w : ℝ, ContDiffAt ℝ 1 (fun y : ℝ => Real.arctan ((y - r) / w)) x := fun r w =>
    ((contDiffAt_id.sub contDiffAt_const).div_const _).arctan
  unfold get_intermediate_raw_phase
  simp only
  fun_prop

lemma cd_rd (theta : Theta) (T : Table) {x : ℝ} (hx : 0 < x) :
    ContDiffAt ℝ 1 (fun y => (get_mergerringdown_raw_phase y theta T).1) x := by
  have h0 := fun p => cd_rpow hx p
  have h1 : ContDiffAt ℝ 1 (fun y : ℝ => y ^ (-1 : ℤ)) x := cd_zpow hx 1
  have h3 : ContDiffAt ℝ 1 (fun y : ℝ => y ^ (-3 : ℤ)) x := cd_zpow hx 3
  have h5 : ∀ r w : ℝ, ContDiffAt ℝ 1 (fun y : ℝ => Real.arctan ((y - r) / w)) x := fun r w =>
    ((contDiffAt_id.sub contDiffAt_const).div_const _).arctan
  unfold get_mergerringdown_raw_phase
  simp only
  fun_prop

lemma deriv_add_affine {g : ℝ → ℝ} {x : ℝ} (h : ContDiffAt ℝ 1 g x) (b c : ℝ) :
    HasDerivAt (fun y => g y + b * y + c) (deriv g x + b) x := by
  have hb : HasDerivAt (fun y : ℝ => b * y) b x := by simpa using (hasDerivAt_id x).const_mul b
  exact (((h.differentiableAt (by norm_num)).hasDerivAt).add hb).add_const c

lemma deriv_add_affine' {g : ℝ → ℝ} {x : ℝ} (h : ContDiffAt ℝ 1 g x) (b c : ℝ) :
    HasDerivAt (fun y => g y + c + b * y) (deriv g x + b) x := by
  have hb : HasDerivAt (fun y : ℝ => b * y) b x := by simpa using (hasDerivAt_id x).const_mul b
  exact (((h.differentiableAt (by norm_num)).hasDerivAt).add_const c).add hb

/-- three pieces with the slope and value matching constants, glued with heaviside factors as in `Phase` -/
lemma glued_C1 {I N R : ℝ → ℝ} (cI : ∀ x, 0 < x → ContDiffAt ℝ 1 I x) (cN : ∀ x, 0 < x → ContDiffAt ℝ 1 N x)
    (cR : ∀ x, 0 < x → ContDiffAt ℝ 1 R x) {f1 f2 fc : ℝ} (h1 : 0 < f1) (h12 : f1 < f2) (a1 a0 b1 b0 : ℝ)
    (ha1 : a1 = deriv I f1 - deriv N f1) (ha0 : a0 = I f1 - N f1 - a1 * f1)
    (hb1 : b1 = deriv (fun y => N y + a1 * y + a0) f2 - deriv R f2)
    (hb0 : b0 = N f2 + a1 * f2 + a0 - R f2 - b1 * f2) :
    ContDiffOn ℝ 1 (fun x => I x * Jnp.heaviside (f1 - x) 0.5
      + Jnp.heaviside (x - f1) 0.5 * (N x + a1 * x + a0) * Jnp.heaviside (f2 - x) 0.5
      + (R x + b0 + b1 * x) * Jnp.heaviside (x - f2) 0.5 * Jnp.heaviside (fc - x) 0.5) (Ioo 0 fc) := by
  have h2 : 0 < f2 := h1.trans h12
  have key := contDiffOn_three (isOpen_Ioi (a := (0 : ℝ))) h12 (p0 := I) (p1 := fun x => N x + a1 * x + a0)
    (p2 := fun x => R x + b0 + b1 * x)
    (fun x hx => (cI x hx).contDiffWithinAt)
    (fun x hx => (((cN x hx).add (by fun_prop)).add (by fun_prop)).contDiffWithinAt)
    (fun x hx => (((cR x hx).add (by fun_prop)).add (by fun_prop)).contDiffWithinAt)
    (by rw [ha0]; ring)
    (by rw [(deriv_add_affine (cN f1 h1) a1 a0).deriv, ha1]; ring)
    (by rw [hb0]; ring)
    (by rw [(deriv_add_affine' (cR f2 h2) b1 b0).deriv, hb1]; ring)
  refine (key.mono fun x hx => hx.1).congr fun x hx => ?_
  rw [Jnp.heaviside_pos (x := fc - x) (by linarith [hx.2])]
  ring

/-! ### slopes of the pieces -/

lemma hd_rpow {x : ℝ} (hx : 0 < x) (p : ℝ) : HasDerivAt (fun y : ℝ => y ^ p) (p * x ^ (p - 1)) x := by
  have := (hasDerivAt_id x).rpow_const (p := p) (Or.inl hx.ne')
  simpa using this

lemma hd_zpow {x : ℝ} (hx : 0 < x) (n : ℤ) : HasDerivAt (fun y : ℝ => y ^ n) (n * x ^ (n - 1)) x :=
  hasDerivAt_zpow n x (Or.inl hx.ne')

lemma hd_arctan {x r w : ℝ} (hw : w ≠ 0) :
    HasDerivAt (fun y : ℝ => Real.arctan ((y - r) / w)) (w / (w ^ 2 + (x - r) ^ 2)) x := by
  have h1 : HasDerivAt (fun y : ℝ => (y - r) / w) (1 / w) x := ((hasDerivAt_id x).sub_const r).div_const w
  have h2 := h1.arctan
  refine h2.congr_deriv ?_
  have : 0 < w ^ 2 := by positivity
  have h3 : w ^ 2 + (x - r) ^ 2 ≠ 0 := by positivity
  have h4 : 1 + ((x - r) / w) ^ 2 = (w ^ 2 + (x - r) ^ 2) / w ^ 2 := by field_simp
  rw [h4]
  field_simp

/-- slope of the raw intermediate phase -/
lemma int_slope (theta : Theta) (T : Table) (a b cL : ℝ) {x : ℝ} (hx : 0 < x)
    (hd : (get_cutoff_fMs theta.m1 theta.m2 theta.chi1 theta.chi2).fdamp ≠ 0) :
    let c := get_cutoff_fMs theta.m1 theta.m2 theta.chi1 theta.chi2
    let k := intermediate_phase_coeffs theta T a b cL
    deriv (fun y => get_intermediate_raw_phase y theta T a b cL) x =
      k 0 + k 1 * (c.fRD / x) + k 2 * (c.fRD / x) ^ 2 + k 3 * (c.fRD / x) ^ 3 + k 4 * (c.fRD / x) ^ 4
        + 4 * cL / (4 * c.fdamp * c.fdamp + (x - c.fRD) * (x - c.fRD)) := by
  intro c k
  have hlog : HasDerivAt (fun y : ℝ => Real.log y) (1 / x) x := by simpa using Real.hasDerivAt_log hx.ne'
  have h2 : (2 * c.fdamp) ≠ 0 := mul_ne_zero two_ne_zero hd
  have H := ((((((hasDerivAt_id x).const_mul (k 0)).add (hlog.const_mul (k 1 * c.fRD))).sub
    ((hd_zpow hx (-1)).const_mul (k 2 * c.fRD ^ 2))).sub
    (((hd_zpow hx (-2)).const_mul (k 3 * c.fRD ^ 3)).div_const 2)).sub
    (((hd_zpow hx (-3)).const_mul (k 4 * c.fRD ^ 4)).div_const 3)).add
    (((hd_arctan (x := x) (r := c.fRD) h2).const_mul (2 * cL)).div_const c.fdamp)
  refine Eq.trans (HasDerivAt.deriv H) ?_
  have hw : 4 * c.fdamp * c.fdamp + (x - c.fRD) * (x - c.fRD) ≠ 0 := by
    have : 0 < c.fdamp * c.fdamp := mul_self_pos.2 hd
    nlinarith [mul_self_nonneg (x - c.fRD)]
  have e : (2 * c.fdamp) ^ 2 + (x - c.fRD) ^ 2 = 4 * c.fdamp * c.fdamp + (x - c.fRD) * (x - c.fRD) := by ring
  rw [e]
  have e2 : 2 * cL * (2 * c.fdamp / (4 * c.fdamp * c.fdamp + (x - c.fRD) * (x - c.fRD))) / c.fdamp =
      4 * cL / (4 * c.fdamp * c.fdamp + (x - c.fRD) * (x - c.fRD)) := by
    have hd' : c.fdamp ≠ 0 := hd
    field_simp
    ring
  rw [e2]
  have z1 : x ^ ((-1 : ℤ) - 1) = (x ^ 2)⁻¹ := by
    rw [show ((-1 : ℤ) - 1) = -((2 : ℕ) : ℤ) by norm_num, zpow_neg, zpow_natCast]
  have z2 : x ^ ((-2 : ℤ) - 1) = (x ^ 3)⁻¹ := by
    rw [show ((-2 : ℤ) - 1) = -((3 : ℕ) : ℤ) by norm_num, zpow_neg, zpow_natCast]
  have z3 : x ^ ((-3 : ℤ) - 1) = (x ^ 4)⁻¹ := by
    rw [show ((-3 : ℤ) - 1) = -((4 : ℕ) : ℤ) by norm_num, zpow_neg, zpow_natCast]
  rw [z1, z2, z3]
  push_cast
  field_simp
  ring

/-- slope of the raw ringdown phase -/
lemma rd_slope (theta : Theta) (T : Table) {x : ℝ} (hx : 0 < x)
    (hd : (get_cutoff_fMs theta.m1 theta.m2 theta.chi1 theta.chi2).fdamp ≠ 0) :
    let c := get_cutoff_fMs theta.m1 theta.m2 theta.chi1 theta.chi2
    let k := ringdown_phase_coeffs theta T
    deriv (fun y => (get_mergerringdown_raw_phase y theta T).1) x =
      k 0 + k 1 * x ^ (-((1 : ℝ) / 3)) + k 2 * x ^ (-2 : ℤ) + k 3 * x ^ (-4 : ℤ)
        + k 4 * (-dphase0 / (c.fdamp * c.fdamp + (x - c.fRD) * (x - c.fRD))) := by
  intro c k
  have H := (((((hasDerivAt_id x).const_mul (k 0)).add ((hd_rpow hx (2 / 3)).const_mul (1.5 * k 1))).sub
    ((hd_zpow hx (-1)).const_mul (k 2))).sub
    ((hd_zpow hx (-3)).const_mul (k 3 / 3))).add
    ((hd_arctan (x := x) (r := c.fRD) hd).const_mul (-(dphase0 * k 4) / c.fdamp))
  refine Eq.trans (HasDerivAt.deriv H) ?_
  have hw : c.fdamp * c.fdamp + (x - c.fRD) * (x - c.fRD) ≠ 0 := by
    have : 0 < c.fdamp * c.fdamp := mul_self_pos.2 hd
    nlinarith [mul_self_nonneg (x - c.fRD)]
  have e : c.fdamp ^ 2 + (x - c.fRD) ^ 2 = c.fdamp * c.fdamp + (x - c.fRD) * (x - c.fRD) := by ring
  have e2 : -(dphase0 * k 4) / c.fdamp * (c.fdamp / (c.fdamp * c.fdamp + (x - c.fRD) * (x - c.fRD))) =
      k 4 * (-dphase0 / (c.fdamp * c.fdamp + (x - c.fRD) * (x - c.fRD))) := by
    have hd' : c.fdamp ≠ 0 := hd
    field_simp
  rw [e, e2]
  have z0 : x ^ ((2 : ℝ) / 3 - 1) = x ^ (-((1 : ℝ) / 3)) := by congr 1; norm_num
  have z1 : ((-1 : ℤ) - 1) = -2 := by norm_num
  have z3 : ((-3 : ℤ) - 1) = -4 := by norm_num
  rw [z0, z1, z3]
  push_cast
  ring

/-- the TaylorF2 part of the inspiral phase -/
noncomputable def tf2Phase (theta : Theta) (x : ℝ) : ℝ :=
  (-(3 * PI ^ (-((5 : ℝ) / 3)))) / 128 * x ^ (-((5 : ℝ) / 3)) *
    ((inspiral_phase_PN theta).phi0 + (inspiral_phase_PN theta).phi1 * x ^ ((1 : ℝ) / 3)
    + (inspiral_phase_PN theta).phi2 * x ^ ((2 : ℝ) / 3) + (inspiral_phase_PN theta).phi3 * x
    + (inspiral_phase_PN theta).phi4 * x ^ ((4 : ℝ) / 3)
    + ((inspiral_phase_PN theta).phi5 + (inspiral_phase_PN theta).phi5L * Real.log x) * x ^ ((5 : ℝ) / 3)
    + ((inspiral_phase_PN theta).phi6 + (inspiral_phase_PN theta).phi6L * Real.log x) * x ^ 2
    + (inspiral_phase_PN theta).phi7 * x ^ ((7 : ℝ) / 3)
    + ((inspiral_phase_PN theta).phi8 + (inspiral_phase_PN theta).phi8L * Real.log x) * x ^ ((8 : ℝ) / 3))

lemma ins_split (theta : Theta) (T : Table) {x : ℝ} (hx : 0 < x) :
    get_inspiral_phase x theta T - tf2Phase theta x =
      dphase0 * (inspiral_phase_coeffs theta T 0 * x + 3 / 4 * inspiral_phase_coeffs theta T 1 * x ^ ((4 : ℝ) / 3)
        + 3 / 5 * inspiral_phase_coeffs theta T 2 * x ^ ((5 : ℝ) / 3) + 1 / 2 * inspiral_phase_coeffs theta T 3 * x ^ 2) := by
  have hpi : PI ^ (-((5 : ℝ) / 3)) = (PI ^ ((5 : ℝ) / 3))⁻¹ := Real.rpow_neg PI_pos.le _
  have hp : PI ^ ((5 : ℝ) / 3) ≠ 0 := (Real.rpow_pos_of_pos PI_pos _).ne'
  have q1 : x ^ ((8 : ℝ) / 3) * x ^ (-((5 : ℝ) / 3)) = x := by
    rw [← Real.rpow_add hx]; norm_num
  have q2 : x ^ 3 * x ^ (-((5 : ℝ) / 3)) = x ^ ((4 : ℝ) / 3) := by
    rw [← Real.rpow_natCast, ← Real.rpow_add hx]; norm_num
  have q3 : x ^ ((10 : ℝ) / 3) * x ^ (-((5 : ℝ) / 3)) = x ^ ((5 : ℝ) / 3) := by
    rw [← Real.rpow_add hx]; norm_num
  have q4 : x ^ ((11 : ℝ) / 3) * x ^ (-((5 : ℝ) / 3)) = x ^ 2 := by
    rw [← Real.rpow_add hx, ← Real.rpow_natCast]; norm_num
  unfold get_inspiral_phase tf2Phase dphase0
  simp only []
  rw [hpi]
  generalize inspiral_phase_coeffs theta T = k
  generalize inspiral_phase_PN theta = p
  have hd : (5 : ℝ) / (128 * PI ^ ((5 : ℝ) / 3)) = 5 / 128 * (PI ^ ((5 : ℝ) / 3))⁻¹ := by
    field_simp
  rw [hd]
  linear_combination ((-(3 * (PI ^ ((5 : ℝ) / 3))⁻¹)) / 128) * (((-5) / 3 * k 0) * q1 + ((-5) / 4 * k 1) * q2 +
    ((-5) / 5 * k 2) * q3 + ((-5) / 6 * k 3) * q4)

/-- slope of the non-TaylorF2 part of the inspiral phase -/
lemma ins_slope (theta : Theta) (T : Table) {x : ℝ} (hx : 0 < x) :
    deriv (fun y => get_inspiral_phase y theta T - tf2Phase theta y) x =
      dphase0 * (inspiral_phase_coeffs theta T 0 + inspiral_phase_coeffs theta T 1 * x ^ ((1 : ℝ) / 3)
        + inspiral_phase_coeffs theta T 2 * x ^ ((2 : ℝ) / 3) + inspiral_phase_coeffs theta T 3 * x) := by
  have hev : (fun y => get_inspiral_phase y theta T - tf2Phase theta y) =ᶠ[nhds x] fun x =>
      dphase0 * (inspiral_phase_coeffs theta T 0 * x + 3 / 4 * inspiral_phase_coeffs theta T 1 * x ^ ((4 : ℝ) / 3)
        + 3 / 5 * inspiral_phase_coeffs theta T 2 * x ^ ((5 : ℝ) / 3) + 1 / 2 * inspiral_phase_coeffs theta T 3 * x ^ 2) := by
    filter_upwards [Ioi_mem_nhds hx] with y hy using ins_split theta T (Set.mem_Ioi.1 hy)
  rw [hev.deriv_eq]
  generalize inspiral_phase_coeffs theta T = k
  have H := (((((hasDerivAt_id x).const_mul (k 0)).add ((hd_rpow hx (4 / 3)).const_mul (3 / 4 * k 1))).add
    ((hd_rpow hx (5 / 3)).const_mul (3 / 5 * k 2))).add (((hasDerivAt_id x).pow 2).const_mul (1 / 2 * k 3))).const_mul dphase0
  refine Eq.trans (HasDerivAt.deriv H) ?_
  have z0 : x ^ ((4 : ℝ) / 3 - 1) = x ^ ((1 : ℝ) / 3) := by congr 1; norm_num
  have z1 : x ^ ((5 : ℝ) / 3 - 1) = x ^ ((2 : ℝ) / 3) := by congr 1; norm_num
  rw [z0, z1]
  simp only [id]
  push_cast
  ring

/-! ### solutions of the linear systems -/

lemma ins_det {CP : Fin 4 → ℝ} (h0 : ∀ i, 0 < CP i) (hinj : Function.Injective CP) :
    (inspiral_phase_matrix CP).det ≠ 0 := by
  have e : inspiral_phase_matrix CP = Matrix.vandermonde fun i => CP i ^ ((1 : ℝ) / 3) := by
    ext i j
    have a2 : ∀ i, CP i ^ ((2 : ℝ) / 3) = (CP i ^ (3 : ℝ)⁻¹) ^ 2 := fun i => by
      rw [← Real.rpow_natCast, ← Real.rpow_mul (h0 i).le]; norm_num
    have a3 : ∀ i, CP i = (CP i ^ (3 : ℝ)⁻¹) ^ 3 := fun i => by
      rw [← Real.rpow_natCast, ← Real.rpow_mul (h0 i).le]; norm_num
    fin_cases i <;> fin_cases j <;> simp [inspiral_phase_matrix, Matrix.vandermonde_apply] <;>
      first | exact a2 _ | exact a3 _
  rw [e, Matrix.det_vandermonde_ne_zero_iff]
  intro i j hij
  apply hinj
  have := congrArg (fun t : ℝ => t ^ (3 : ℕ)) hij
  simp only [← Real.rpow_natCast, ← Real.rpow_mul (h0 _).le] at this
  norm_num at this
  exact this

lemma int_det {CP : Fin 5 → ℝ} {r : ℝ} (hr : r ≠ 0) (h0 : ∀ i, CP i ≠ 0) (hinj : Function.Injective CP) :
    (intermediate_phase_matrix CP r).det ≠ 0 := by
  have e : intermediate_phase_matrix CP r = Matrix.vandermonde fun i => r / CP i := by
    ext i j
    fin_cases i <;> fin_cases j <;> simp [intermediate_phase_matrix, Matrix.vandermonde_apply, pow_two]
  rw [e, Matrix.det_vandermonde_ne_zero_iff]
  intro i j hij
  apply hinj
  simp only at hij
  have hi := h0 i
  have hj := h0 j
  rw [div_eq_div_iff hi hj] at hij
  exact (mul_left_cancel₀ hr hij).symm

end XAS
end Ripple

/-
  Helper lemmas about the PhenomD model: smoothness of the pieces.
-/
import Verif.Model.PhenomD
import Verif.Proofs.Glue
import Mathlib.Analysis.SpecialFunctions.Pow.Deriv
import Mathlib.Analysis.SpecialFunctions.Log.Deriv
import Mathlib.Analysis.SpecialFunctions.Trigonometric.ArctanDeriv

namespace Ripple
namespace PhenomD
open Set Filter Topology

lemma cd_rpow {x : ℝ} (hx : 0 < x) (p : ℝ) : ContDiffAt ℝ 1 (fun y : ℝ => y ^ p) x :=
  contDiffAt_id.rpow_const_of_ne hx.ne'

lemma cd_pi_rpow {x : ℝ} (hx : 0 < x) (p : ℝ) : ContDiffAt ℝ 1 (fun y : ℝ => (PI * y) ^ p) x :=
  (contDiffAt_const.mul contDiffAt_id).rpow_const_of_ne (mul_pos PI_pos hx).ne'

lemma cd_pi_log {x : ℝ} (hx : 0 < x) (p : ℝ) : ContDiffAt ℝ 1 (fun y : ℝ => Real.log ((PI * y) ^ p)) x :=
  (cd_pi_rpow hx p).log (Real.rpow_pos_of_pos (mul_pos PI_pos hx) p).ne'

lemma cd_zpow {x : ℝ} (hx : 0 < x) (n : ℕ) : ContDiffAt ℝ 1 (fun y : ℝ => y ^ (-(n : ℤ))) x := by
  simp only [zpow_neg, zpow_natCast]
  exact (contDiffAt_id.pow n).inv (pow_pos hx n).ne'

lemma cd_inspiral_phase (theta : Theta) (coeffs : Fin 19 → ℝ) {x : ℝ} (hx : 0 < x) :
    ContDiffAt ℝ 1 (fun y => get_inspiral_phase y theta coeffs) x := by
  have h1 := fun p => cd_rpow hx p
  have h2 := fun p => cd_pi_rpow hx p
  have h3 := fun p => cd_pi_log hx p
  have h4 : ContDiffAt ℝ 1 (fun y : ℝ => (PI * y) ^ (-1 : ℤ)) x := by
    simp only [zpow_neg, zpow_one]
    exact (contDiffAt_const.mul contDiffAt_id).inv (mul_pos PI_pos hx).ne'
  unfold get_inspiral_phase phi_TF2
  simp only
  fun_prop

lemma cd_IIa_raw_phase (theta : Theta) (coeffs : Fin 19 → ℝ) {x : ℝ} (hx : 0 < x) :
    ContDiffAt ℝ 1 (fun y => get_IIa_raw_phase y theta coeffs) x := by
  have h1 : ContDiffAt ℝ 1 (fun y : ℝ => y ^ (-3 : ℤ)) x := cd_zpow hx 3
  have h2 : ContDiffAt ℝ 1 (fun y : ℝ => Real.log y) x := contDiffAt_id.log hx.ne'
  unfold get_IIa_raw_phase
  simp only
  fun_prop

lemma cd_IIb_raw_phase (theta : Theta) (coeffs : Fin 19 → ℝ) (f_RD f_damp : ℝ) {x : ℝ} (hx : 0 < x) :
    ContDiffAt ℝ 1 (fun y => get_IIb_raw_phase y theta coeffs f_RD f_damp) x := by
  have h1 : ContDiffAt ℝ 1 (fun y : ℝ => y ^ (-1 : ℤ)) x := cd_zpow hx 1
  have h2 := fun p => cd_rpow hx p
  have h3 : ContDiffAt ℝ 1 (fun y : ℝ => Real.arctan ((y - coeffs 18 * (f_RD * (theta.m1 * gt + theta.m2 * gt))) /
      (f_damp * (theta.m1 * gt + theta.m2 * gt)))) x :=
    ((contDiffAt_id.sub contDiffAt_const).div_const _).arctan
  unfold get_IIb_raw_phase
  simp only
  fun_prop

lemma cd_inspiral_Amp (theta : Theta) (coeffs : Fin 19 → ℝ) {x : ℝ} (hx : 0 < x) :
    ContDiffAt ℝ 1 (fun y => get_inspiral_Amp y theta coeffs) x := by
  have h2 := fun p => cd_rpow hx p
  unfold get_inspiral_Amp
  simp only
  fun_prop

lemma cd_IIb_Amp (theta : Theta) (coeffs : Fin 19 → ℝ) (f_RD f_damp : ℝ)
    (h : f_damp * (theta.m1 * gt + theta.m2 * gt) * coeffs 6 ≠ 0) (x : ℝ) :
    ContDiffAt ℝ 1 (fun y => get_IIb_Amp y theta coeffs f_RD f_damp) x := by
  unfold get_IIb_Amp
  simp only
  refine ContDiffAt.div ?_ ?_ ?_
  · exact ContDiffAt.mul (Real.contDiff_exp.contDiffAt.comp x (by fun_prop)) contDiffAt_const
  · fun_prop
  · have := sq_nonneg (x - f_RD * (theta.m1 * gt + theta.m2 * gt))
    have := pow_pos (abs_pos.2 h) 2
    rw [sq_abs] at this
    positivity

lemma cd_Amp0 (eta : ℝ) {x : ℝ} (hx : 0 < x) : ContDiffAt ℝ 1 (fun y => get_Amp0 y eta) x := by
  have h2 := fun p => cd_rpow hx p
  unfold get_Amp0
  simp only
  fun_prop

end PhenomD
end Ripple

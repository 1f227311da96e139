/-
  Where the ringdown coefficient `gamma2` of the IMRPhenomXAS amplitude is below one.
-/
import Verif.Proofs.XASSpin

namespace Ripple
namespace XAS

lemma g2_near (e S k : ℝ) (he : 5 / 36 ≤ e ∧ e ≤ 0.25) (hS : -1 ≤ S ∧ S ≤ 1) (hk : -2 ≤ k ∧ k ≤ 2) :
    0 < 1 - spG2 e S k := by
  unfold spG2
  affine_bnb [he, hS, hk] []

lemma g2_moderate (e S k : ℝ) (he : 0.045 ≤ e ∧ e ≤ 0.25) (hS : -1 ≤ S ∧ S ≤ 0.7) (hk : -2 ≤ k ∧ k ≤ 2) :
    0 < 1 - spG2 e S k := by
  unfold spG2
  affine_bnb [he, hS, hk] []

lemma stot_le {theta : Theta} {b : ℝ} (h1 : theta.chi1 ≤ b) (h2 : theta.chi2 ≤ b) : stotOf theta ≤ b := by
  rw [sp_stot]
  generalize dOf theta = d
  rw [div_le_iff₀ (by positivity)]
  nlinarith [mul_nonneg (sq_nonneg (1 + d)) (sub_nonneg.2 h1), mul_nonneg (sq_nonneg (1 - d)) (sub_nonneg.2 h2)]

lemma le_stot {theta : Theta} {b : ℝ} (h1 : b ≤ theta.chi1) (h2 : b ≤ theta.chi2) : b ≤ stotOf theta := by
  rw [sp_stot]
  generalize dOf theta = d
  rw [le_div_iff₀ (by positivity)]
  nlinarith [mul_nonneg (sq_nonneg (1 + d)) (sub_nonneg.2 h1), mul_nonneg (sq_nonneg (1 - d)) (sub_nonneg.2 h2)]

lemma spin_diff {theta : Theta} (h : theta.Physical) :
    -2 ≤ (theta.chi1 - theta.chi2) * dOf theta ∧ (theta.chi1 - theta.chi2) * dOf theta ≤ 2 := by
  obtain ⟨a, b⟩ := abs_le.1 h.chi1_le
  obtain ⟨c, d⟩ := abs_le.1 h.chi2_le
  obtain ⟨d0, d1, -⟩ := dOf_range h
  constructor <;> nlinarith

/-- `gamma2 < 1` for mass ratios up to 5 with any spins, and up to 20 with spins up to 0.7 -/
lemma gamma2_lt {theta : Theta} (h : theta.Physical)
    (hr : 5 / 36 ≤ etaOf theta ∨ 0.045 ≤ etaOf theta ∧ theta.chi1 ≤ 0.7 ∧ theta.chi2 ≤ 0.7) :
    (ringdown_Amp_fits theta PhenomX_amp_coeff_table).1 < 1 := by
  rw [sp_gamma2]
  have e := (etaOf_range h).2
  obtain ⟨a, b⟩ := abs_le.1 h.chi1_le
  obtain ⟨c, d⟩ := abs_le.1 h.chi2_le
  have lo := le_stot a c
  have e' : etaOf theta ≤ 0.25 := by norm_num; linarith
  rcases hr with hr | ⟨hr, x, y⟩
  · linarith [g2_near _ _ _ ⟨hr, e'⟩ ⟨lo, stot_le b d⟩ (spin_diff h)]
  · linarith [g2_moderate _ _ _ ⟨hr, e'⟩ ⟨lo, stot_le x y⟩ (spin_diff h)]

end XAS
end Ripple

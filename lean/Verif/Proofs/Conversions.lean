import Verif.Model.Conversions
import Mathlib.Tactic.Linarith
import Mathlib.Tactic.FieldSimp
import Mathlib.Tactic.Positivity
import Mathlib.Tactic.LinearCombination

namespace Ripple
open Real

lemma rpow_half (x : ℝ) : x ^ (0.5 : ℝ) = Real.sqrt x := by
  rw [Real.sqrt_eq_rpow]; norm_num

/-- closed form of `Mc_eta_to_ms` with `M` the total mass and `s = sqrt(1-4η)` -/
lemma Mc_eta_to_ms_eq {Mc eta : ℝ} (hM : 0 < Mc) (h0 : 0 < eta) :
    Mc_eta_to_ms Mc eta =
      ((Mc / eta ^ ((3 : ℝ) / 5)) * (1 + √(1 - 4 * eta)) / 2,
       (Mc / eta ^ ((3 : ℝ) / 5)) * (1 - √(1 - 4 * eta)) / 2) := by
  have hp : 0 < eta ^ ((3 : ℝ) / 5) := rpow_pos_of_pos h0 _
  set M := Mc / eta ^ ((3 : ℝ) / 5) with hMdef
  have hMp : 0 < M := div_pos hM hp
  have hs : √(M ^ 2 - 4 * M ^ 2 * eta) = M * √(1 - 4 * eta) := by
    rw [show M ^ 2 - 4 * M ^ 2 * eta = M ^ 2 * (1 - 4 * eta) by ring,
      Real.sqrt_mul (sq_nonneg M), Real.sqrt_sq hMp.le]
  simp only [Mc_eta_to_ms, ← hMdef, hs]
  ext <;> simp <;> ring

lemma sq_sqrt_eta {eta : ℝ} (h1 : eta ≤ 1 / 4) : √(1 - 4 * eta) ^ 2 = 1 - 4 * eta :=
  Real.sq_sqrt (by linarith)

lemma sqrt_eta_lt_one {eta : ℝ} (h0 : 0 < eta) : √(1 - 4 * eta) < 1 := by
  rw [Real.sqrt_lt' one_pos]; linarith

lemma eta_of_masses {m1 m2 : ℝ} (h1 : 0 < m1) (h2 : 0 < m2) :
    0 < m1 * m2 / (m1 + m2) ^ 2 ∧ m1 * m2 / (m1 + m2) ^ 2 ≤ 1 / 4 := by
  refine ⟨by positivity, ?_⟩
  rw [div_le_iff₀ (by positivity)]
  nlinarith [sq_nonneg (m1 - m2)]

lemma sqrt_one_sub_four_eta {m1 m2 : ℝ} (h1 : 0 < m1) (h2 : 0 < m2) :
    √(1 - 4 * (m1 * m2 / (m1 + m2) ^ 2)) = |m1 - m2| / (m1 + m2) := by
  have hM : 0 < m1 + m2 := by positivity
  rw [show 1 - 4 * (m1 * m2 / (m1 + m2) ^ 2) = ((m1 - m2) / (m1 + m2)) ^ 2 by
    field_simp; ring, Real.sqrt_sq_eq_abs, abs_div, abs_of_pos hM]

/-- the total mass recovered from chirp mass and eta -/
lemma total_mass_of_Mc {m1 m2 : ℝ} (h1 : 0 < m1) (h2 : 0 < m2) :
    (m1 * m2) ^ ((3 : ℝ) / 5) / (m1 + m2) ^ ((1 : ℝ) / 5) /
      (m1 * m2 / (m1 + m2) ^ 2) ^ ((3 : ℝ) / 5) = m1 + m2 := by
  have hM : 0 < m1 + m2 := by positivity
  have hP : 0 < m1 * m2 := by positivity
  rw [Real.div_rpow hP.le (by positivity), ← Real.rpow_natCast, ← Real.rpow_mul hM.le]
  have e1 : (m1 + m2) ^ (((2 : ℕ) : ℝ) * (3 / 5)) = (m1 + m2) * (m1 + m2) ^ ((1 : ℝ) / 5) := by
    rw [show (((2 : ℕ) : ℝ) * (3 / 5)) = 1 + 1 / 5 by norm_num, Real.rpow_add hM, Real.rpow_one]
  rw [e1]
  have := (rpow_pos_of_pos hP ((3 : ℝ) / 5)).ne'
  have := (rpow_pos_of_pos hM ((1 : ℝ) / 5)).ne'
  field_simp

lemma eta_q {m1 m2 : ℝ} (h1 : 0 < m1) (h2 : 0 < m2) :
    (m2 / m1) / (1 + m2 / m1) ^ 2 = m1 * m2 / (m1 + m2) ^ 2 := by
  field_simp

/-- the determinant of the (λ1,λ2) → (λ̃,δλ̃) system, up to a constant factor -/
lemma lambda_det {eta s : ℝ} (hs : s ^ 2 = 1 - 4 * eta) :
    (1 + 7 * eta - 31 * eta ^ 2 + s * (1 + 9 * eta - 11 * eta ^ 2)) *
        (s * (1 - 13272 / 1319 * eta + 8944 / 1319 * eta ^ 2) -
          (1 - 15910 / 1319 * eta + 32850 / 1319 * eta ^ 2 + 3380 / 1319 * eta ^ 3)) -
      (1 + 7 * eta - 31 * eta ^ 2 - s * (1 + 9 * eta - 11 * eta ^ 2)) *
        (s * (1 - 13272 / 1319 * eta + 8944 / 1319 * eta ^ 2) +
          (1 - 15910 / 1319 * eta + 32850 / 1319 * eta ^ 2 + 3380 / 1319 * eta ^ 3)) =
      4 / 1319 * eta ^ 4 * (249158 * eta - 4823) := by
  linear_combination (2 * (1 + 9 * eta - 11 * eta ^ 2) *
    (1 - 13272 / 1319 * eta + 8944 / 1319 * eta ^ 2)) * hs

end Ripple

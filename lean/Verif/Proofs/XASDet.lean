/-
  Helper lemmas: the collocation determinant of the ringdown phase fit does not vanish.
-/
import Verif.Proofs.XASDetNum
import Verif.Proofs.XASDetAlg

namespace Ripple
namespace XAS
open Real Set

/-- rational approximation of `(1 - x)^(-1/3)` -/
noncomputable def root (x : ℝ) : ℝ := (1.00004 + x * (0.20918 * x - 1.09409)) / (1 + x * (0.45666 * x - 1.42625))

noncomputable def dq (x y : ℝ) : ℝ := x ^ 2 + x * y + y ^ 2
noncomputable def dS (a b c d : ℝ) : ℝ :=
  hsym [b, c, d] 4 * hsym [a, b, c, d] 9 - hsym [a, b, c, d] 3 * hsym [b, c, d] 10

lemma hsym_unit (k : ℕ) : hsym [1] k = 1 := by rw [hsym_one, one_pow]

lemma dt_neg (d v t c1 s0 s1 s2 s3 : ℝ) (hd : 0 ≤ d ∧ d ≤ 0.7) (hv : 0 ≤ v ∧ v ≤ 1)
    (hc1 : 0.8535533 ≤ c1 ∧ c1 ≤ 0.8535534) (ht : t = v * (0.21 + 0.31 * d))
    (h0 : |s0 - root d| ≤ 0.0001) (h1 : |s1 - root (d * c1)| ≤ 0.0001) (h2 : |s2 - root (d * 0.5)| ≤ 0.0001)
    (h3 : |s3 - root (d * t)| ≤ 0.0001) :
    0 < -(((((((1 / (((1 - c1) * 0.5) * (1 - t))) * (t * (0.5 - t))) * (t ^ 2 / (t ^ 2 + (1.5625 * (t - 1) ^ 2)))) * ((((dq s1 s0) * (dq s2 s0)) * (dq s3 s0)) * (dq 1 s0))) / s0 ^ 9) * (dS s1 s2 s3 1 / 1000))
      + ((((((-1 / ((((1 - c1) * (c1 - 0.5)) * c1) * (c1 - t))) * (t * (0.5 - t))) * (t ^ 2 / (t ^ 2 + (1.5625 * (t - c1) ^ 2)))) * ((((dq s1 s0) * (dq s2 s1)) * (dq s3 s1)) * (dq 1 s1))) / s1 ^ 9) * (dS s0 s2 s3 1 / 1000))
      + ((((((1 / ((0.5 * (c1 - 0.5)) * 0.5)) * t) * (t ^ 2 / (t ^ 2 + (1.5625 * (0.5 - t) ^ 2)))) * ((((dq s2 s0) * (dq s2 s1)) * (dq s3 s2)) * (dq 1 s2))) / s2 ^ 9) * (dS s0 s1 s3 1 / 1000))
      + ((((((-1 / ((1 - t) * (c1 - t))) * 1) * 1) * ((((dq s3 s0) * (dq s3 s1)) * (dq s3 s2)) * (dq 1 s3))) / s3 ^ 9) * (dS s0 s1 s2 1 / 1000))
      + (((((1 / (c1 * 0.5)) * (0.5 - t)) * (1 / 2.5625)) * ((((dq 1 s0) * (dq 1 s1)) * (dq 1 s2)) * (dq 1 s3))) * (dS s0 s1 s2 s3 / 1000))) :=
  dt_num d v (s0 - root d) (s1 - root (d * c1)) (s2 - root (d * 0.5)) (s3 - root (d * t)) c1 t s0 (d * c1) s1 (d * 0.5) s2 (d *
    t) s3 (hsym [s3, 1] 1) (hsym [s3, 1] 2) (hsym [s3, 1] 3) (hsym [s3, 1] 4) (hsym [s2, s3, 1] 1) (hsym [s2, s3, 1] 2)
    (hsym [s2, s3, 1] 3) (hsym [s2, s3, 1] 4) (hsym [s3, 1] 5) (hsym [s3, 1] 6) (hsym [s3, 1] 7) (hsym [s3, 1] 8) (hsym
    [s3, 1] 9) (hsym [s2, s3, 1] 5) (hsym [s2, s3, 1] 6) (hsym [s2, s3, 1] 7) (hsym [s2, s3, 1] 8) (hsym [s2, s3, 1] 9)
    (hsym [s1, s2, s3, 1] 1) (hsym [s1, s2, s3, 1] 2) (hsym [s1, s2, s3, 1] 3) (hsym [s1, s2, s3, 1] 4) (hsym [s1, s2, s3,
    1] 5) (hsym [s1, s2, s3, 1] 6) (hsym [s1, s2, s3, 1] 7) (hsym [s1, s2, s3, 1] 8) (hsym [s1, s2, s3, 1] 9) (hsym [s3,
    1] 10) (hsym [s2, s3, 1] 10) (dS s1 s2 s3 1 / 1000) (hsym [s0, s2, s3, 1] 1) (hsym [s0, s2, s3, 1] 2) (hsym [s0, s2,
    s3, 1] 3) (hsym [s0, s2, s3, 1] 4) (hsym [s0, s2, s3, 1] 5) (hsym [s0, s2, s3, 1] 6) (hsym [s0, s2, s3, 1] 7) (hsym
    [s0, s2, s3, 1] 8) (hsym [s0, s2, s3, 1] 9) (dS s0 s2 s3 1 / 1000) (hsym [s1, s3, 1] 1) (hsym [s1, s3, 1] 2) (hsym
    [s1, s3, 1] 3) (hsym [s1, s3, 1] 4) (hsym [s1, s3, 1] 5) (hsym [s1, s3, 1] 6) (hsym [s1, s3, 1] 7) (hsym [s1, s3, 1]
    8) (hsym [s1, s3, 1] 9) (hsym [s0, s1, s3, 1] 1) (hsym [s0, s1, s3, 1] 2) (hsym [s0, s1, s3, 1] 3) (hsym [s0, s1, s3,
    1] 4) (hsym [s0, s1, s3, 1] 5) (hsym [s0, s1, s3, 1] 6) (hsym [s0, s1, s3, 1] 7) (hsym [s0, s1, s3, 1] 8) (hsym [s0,
    s1, s3, 1] 9) (hsym [s1, s3, 1] 10) (dS s0 s1 s3 1 / 1000) (hsym [s2, 1] 1) (hsym [s2, 1] 2) (hsym [s2, 1] 3) (hsym
    [s2, 1] 4) (hsym [s1, s2, 1] 1) (hsym [s1, s2, 1] 2) (hsym [s1, s2, 1] 3) (hsym [s1, s2, 1] 4) (hsym [s2, 1] 5) (hsym
    [s2, 1] 6) (hsym [s2, 1] 7) (hsym [s2, 1] 8) (hsym [s2, 1] 9) (hsym [s1, s2, 1] 5) (hsym [s1, s2, 1] 6) (hsym [s1, s2,
    1] 7) (hsym [s1, s2, 1] 8) (hsym [s1, s2, 1] 9) (hsym [s0, s1, s2, 1] 1) (hsym [s0, s1, s2, 1] 2) (hsym [s0, s1, s2,
    1] 3) (hsym [s0, s1, s2, 1] 4) (hsym [s0, s1, s2, 1] 5) (hsym [s0, s1, s2, 1] 6) (hsym [s0, s1, s2, 1] 7) (hsym [s0,
    s1, s2, 1] 8) (hsym [s0, s1, s2, 1] 9) (hsym [s2, 1] 10) (hsym [s1, s2, 1] 10) (dS s0 s1 s2 1 / 1000) (hsym [s3] 1)
    (hsym [s3] 2) (hsym [s3] 3) (hsym [s3] 4) (hsym [s2, s3] 1) (hsym [s2, s3] 2) (hsym [s2, s3] 3) (hsym [s2, s3] 4)
    (hsym [s1, s2, s3] 1) (hsym [s1, s2, s3] 2) (hsym [s1, s2, s3] 3) (hsym [s1, s2, s3] 4) (hsym [s3] 5) (hsym [s3] 6)
    (hsym [s3] 7) (hsym [s3] 8) (hsym [s3] 9) (hsym [s2, s3] 5) (hsym [s2, s3] 6) (hsym [s2, s3] 7) (hsym [s2, s3] 8)
    (hsym [s2, s3] 9) (hsym [s1, s2, s3] 5) (hsym [s1, s2, s3] 6) (hsym [s1, s2, s3] 7) (hsym [s1, s2, s3] 8) (hsym [s1,
    s2, s3] 9) (hsym [s0, s1, s2, s3] 1) (hsym [s0, s1, s2, s3] 2) (hsym [s0, s1, s2, s3] 3) (hsym [s0, s1, s2, s3] 4)
    (hsym [s0, s1, s2, s3] 5) (hsym [s0, s1, s2, s3] 6) (hsym [s0, s1, s2, s3] 7) (hsym [s0, s1, s2, s3] 8) (hsym [s0, s1,
    s2, s3] 9) (hsym [s3] 10) (hsym [s2, s3] 10) (hsym [s1, s2, s3] 10) (dS s0 s1 s2 s3 / 1000) (dq s1 s0) (dq s2 s0) (dq
    s2 s1) (dq s3 s0) (dq s3 s1) (dq s3 s2) (dq 1 s0) (dq 1 s1) (dq 1 s2) (dq 1 s3) (0.5 - t) (t ^ 2 / (t ^ 2 + (1.5625 *
    (t - 1) ^ 2))) (t ^ 2 / (t ^ 2 + (1.5625 * (t - c1) ^ 2))) (t ^ 2 / (t ^ 2 + (1.5625 * (0.5 - t) ^ 2))) ((((1 / (((1 -
    c1) * 0.5) * (1 - t))) * (t * (0.5 - t))) * (t ^ 2 / (t ^ 2 + (1.5625 * (t - 1) ^ 2)))) * ((((dq s1 s0) * (dq s2 s0))
    * (dq s3 s0)) * (dq 1 s0))) ((((((1 / (((1 - c1) * 0.5) * (1 - t))) * (t * (0.5 - t))) * (t ^ 2 / (t ^ 2 + (1.5625 *
    (t - 1) ^ 2)))) * ((((dq s1 s0) * (dq s2 s0)) * (dq s3 s0)) * (dq 1 s0))) / s0 ^ 9) * (dS s1 s2 s3 1 / 1000)) ((((-1 /
    ((((1 - c1) * (c1 - 0.5)) * c1) * (c1 - t))) * (t * (0.5 - t))) * (t ^ 2 / (t ^ 2 + (1.5625 * (t - c1) ^ 2)))) *
    ((((dq s1 s0) * (dq s2 s1)) * (dq s3 s1)) * (dq 1 s1))) ((((((-1 / ((((1 - c1) * (c1 - 0.5)) * c1) * (c1 - t))) * (t *
    (0.5 - t))) * (t ^ 2 / (t ^ 2 + (1.5625 * (t - c1) ^ 2)))) * ((((dq s1 s0) * (dq s2 s1)) * (dq s3 s1)) * (dq 1 s1))) /
    s1 ^ 9) * (dS s0 s2 s3 1 / 1000)) ((((1 / ((0.5 * (c1 - 0.5)) * 0.5)) * t) * (t ^ 2 / (t ^ 2 + (1.5625 * (0.5 - t) ^
    2)))) * ((((dq s2 s0) * (dq s2 s1)) * (dq s3 s2)) * (dq 1 s2))) ((((((1 / ((0.5 * (c1 - 0.5)) * 0.5)) * t) * (t ^ 2 /
    (t ^ 2 + (1.5625 * (0.5 - t) ^ 2)))) * ((((dq s2 s0) * (dq s2 s1)) * (dq s3 s2)) * (dq 1 s2))) / s2 ^ 9) * (dS s0 s1
    s3 1 / 1000)) ((((-1 / ((1 - t) * (c1 - t))) * 1) * 1) * ((((dq s3 s0) * (dq s3 s1)) * (dq s3 s2)) * (dq 1 s3)))
    ((((((-1 / ((1 - t) * (c1 - t))) * 1) * 1) * ((((dq s3 s0) * (dq s3 s1)) * (dq s3 s2)) * (dq 1 s3))) / s3 ^ 9) * (dS
    s0 s1 s2 1 / 1000)) ((((1 / (c1 * 0.5)) * (0.5 - t)) * (1 / 2.5625)) * ((((dq 1 s0) * (dq 1 s1)) * (dq 1 s2)) * (dq 1
    s3))) (((((1 / (c1 * 0.5)) * (0.5 - t)) * (1 / 2.5625)) * ((((dq 1 s0) * (dq 1 s1)) * (dq 1 s2)) * (dq 1 s3))) * (dS
    s0 s1 s2 s3 / 1000))
    hd hv (abs_le.1 h0) (abs_le.1 h1) (abs_le.1 h2) (abs_le.1 h3) hc1 ht (add_sub_cancel _ _).symm rfl (add_sub_cancel _
    _).symm rfl (add_sub_cancel _ _).symm rfl (add_sub_cancel _ _).symm ((hsym_succ s3 [1] 0).trans (by rw [hsym_unit,
    hsym_zero])) ((hsym_succ s3 [1] 1).trans (by rw [hsym_unit])) ((hsym_succ s3 [1] 2).trans (by rw [hsym_unit]))
    ((hsym_succ s3 [1] 3).trans (by rw [hsym_unit])) ((hsym_succ s2 [s3, 1] 0).trans (by rw [hsym_zero])) (hsym_succ s2
    [s3, 1] 1) (hsym_succ s2 [s3, 1] 2) (hsym_succ s2 [s3, 1] 3) ((hsym_succ s3 [1] 4).trans (by rw [hsym_unit]))
    ((hsym_succ s3 [1] 5).trans (by rw [hsym_unit])) ((hsym_succ s3 [1] 6).trans (by rw [hsym_unit])) ((hsym_succ s3 [1]
    7).trans (by rw [hsym_unit])) ((hsym_succ s3 [1] 8).trans (by rw [hsym_unit])) (hsym_succ s2 [s3, 1] 4) (hsym_succ s2
    [s3, 1] 5) (hsym_succ s2 [s3, 1] 6) (hsym_succ s2 [s3, 1] 7) (hsym_succ s2 [s3, 1] 8) ((hsym_succ s1 [s2, s3, 1]
    0).trans (by rw [hsym_zero])) (hsym_succ s1 [s2, s3, 1] 1) (hsym_succ s1 [s2, s3, 1] 2) (hsym_succ s1 [s2, s3, 1] 3)
    (hsym_succ s1 [s2, s3, 1] 4) (hsym_succ s1 [s2, s3, 1] 5) (hsym_succ s1 [s2, s3, 1] 6) (hsym_succ s1 [s2, s3, 1] 7)
    (hsym_succ s1 [s2, s3, 1] 8) ((hsym_succ s3 [1] 9).trans (by rw [hsym_unit])) (hsym_succ s2 [s3, 1] 9) rfl ((hsym_succ
    s0 [s2, s3, 1] 0).trans (by rw [hsym_zero])) (hsym_succ s0 [s2, s3, 1] 1) (hsym_succ s0 [s2, s3, 1] 2) (hsym_succ s0
    [s2, s3, 1] 3) (hsym_succ s0 [s2, s3, 1] 4) (hsym_succ s0 [s2, s3, 1] 5) (hsym_succ s0 [s2, s3, 1] 6) (hsym_succ s0
    [s2, s3, 1] 7) (hsym_succ s0 [s2, s3, 1] 8) rfl ((hsym_succ s1 [s3, 1] 0).trans (by rw [hsym_zero])) (hsym_succ s1
    [s3, 1] 1) (hsym_succ s1 [s3, 1] 2) (hsym_succ s1 [s3, 1] 3) (hsym_succ s1 [s3, 1] 4) (hsym_succ s1 [s3, 1] 5)
    (hsym_succ s1 [s3, 1] 6) (hsym_succ s1 [s3, 1] 7) (hsym_succ s1 [s3, 1] 8) ((hsym_succ s0 [s1, s3, 1] 0).trans (by rw
    [hsym_zero])) (hsym_succ s0 [s1, s3, 1] 1) (hsym_succ s0 [s1, s3, 1] 2) (hsym_succ s0 [s1, s3, 1] 3) (hsym_succ s0
    [s1, s3, 1] 4) (hsym_succ s0 [s1, s3, 1] 5) (hsym_succ s0 [s1, s3, 1] 6) (hsym_succ s0 [s1, s3, 1] 7) (hsym_succ s0
    [s1, s3, 1] 8) (hsym_succ s1 [s3, 1] 9) rfl ((hsym_succ s2 [1] 0).trans (by rw [hsym_unit, hsym_zero])) ((hsym_succ s2
    [1] 1).trans (by rw [hsym_unit])) ((hsym_succ s2 [1] 2).trans (by rw [hsym_unit])) ((hsym_succ s2 [1] 3).trans (by rw
    [hsym_unit])) ((hsym_succ s1 [s2, 1] 0).trans (by rw [hsym_zero])) (hsym_succ s1 [s2, 1] 1) (hsym_succ s1 [s2, 1] 2)
    (hsym_succ s1 [s2, 1] 3) ((hsym_succ s2 [1] 4).trans (by rw [hsym_unit])) ((hsym_succ s2 [1] 5).trans (by rw
    [hsym_unit])) ((hsym_succ s2 [1] 6).trans (by rw [hsym_unit])) ((hsym_succ s2 [1] 7).trans (by rw [hsym_unit]))
    ((hsym_succ s2 [1] 8).trans (by rw [hsym_unit])) (hsym_succ s1 [s2, 1] 4) (hsym_succ s1 [s2, 1] 5) (hsym_succ s1 [s2,
    1] 6) (hsym_succ s1 [s2, 1] 7) (hsym_succ s1 [s2, 1] 8) ((hsym_succ s0 [s1, s2, 1] 0).trans (by rw [hsym_zero]))
    (hsym_succ s0 [s1, s2, 1] 1) (hsym_succ s0 [s1, s2, 1] 2) (hsym_succ s0 [s1, s2, 1] 3) (hsym_succ s0 [s1, s2, 1] 4)
    (hsym_succ s0 [s1, s2, 1] 5) (hsym_succ s0 [s1, s2, 1] 6) (hsym_succ s0 [s1, s2, 1] 7) (hsym_succ s0 [s1, s2, 1] 8)
    ((hsym_succ s2 [1] 9).trans (by rw [hsym_unit])) (hsym_succ s1 [s2, 1] 9) rfl (by rw [hsym_one, pow_one]) (by rw
    [hsym_one, hsym_one, pow_succ]) (by rw [hsym_one, hsym_one, pow_succ]) (by rw [hsym_one, hsym_one, pow_succ])
    ((hsym_succ s2 [s3] 0).trans (by rw [hsym_zero])) (hsym_succ s2 [s3] 1) (hsym_succ s2 [s3] 2) (hsym_succ s2 [s3] 3)
    ((hsym_succ s1 [s2, s3] 0).trans (by rw [hsym_zero])) (hsym_succ s1 [s2, s3] 1) (hsym_succ s1 [s2, s3] 2) (hsym_succ
    s1 [s2, s3] 3) (by rw [hsym_one, hsym_one, pow_succ]) (by rw [hsym_one, hsym_one, pow_succ]) (by rw [hsym_one,
    hsym_one, pow_succ]) (by rw [hsym_one, hsym_one, pow_succ]) (by rw [hsym_one, hsym_one, pow_succ]) (hsym_succ s2 [s3]
    4) (hsym_succ s2 [s3] 5) (hsym_succ s2 [s3] 6) (hsym_succ s2 [s3] 7) (hsym_succ s2 [s3] 8) (hsym_succ s1 [s2, s3] 4)
    (hsym_succ s1 [s2, s3] 5) (hsym_succ s1 [s2, s3] 6) (hsym_succ s1 [s2, s3] 7) (hsym_succ s1 [s2, s3] 8) ((hsym_succ s0
    [s1, s2, s3] 0).trans (by rw [hsym_zero])) (hsym_succ s0 [s1, s2, s3] 1) (hsym_succ s0 [s1, s2, s3] 2) (hsym_succ s0
    [s1, s2, s3] 3) (hsym_succ s0 [s1, s2, s3] 4) (hsym_succ s0 [s1, s2, s3] 5) (hsym_succ s0 [s1, s2, s3] 6) (hsym_succ
    s0 [s1, s2, s3] 7) (hsym_succ s0 [s1, s2, s3] 8) (by rw [hsym_one, hsym_one, pow_succ]) (hsym_succ s2 [s3] 9)
    (hsym_succ s1 [s2, s3] 9) rfl rfl rfl rfl rfl rfl rfl rfl rfl rfl rfl rfl rfl rfl rfl rfl rfl rfl rfl rfl rfl rfl rfl
    rfl rfl
lemma dt_term {K g V0 F Q c l S T : ℝ} (h : K * g = F * Q) (hT : T * g = c * l * Q * (S / 1000)) (hg : g ≠ 0) :
    K * c * (l * (V0 * S)) = 1000 * (V0 * F) * T := by
  refine mul_right_cancel₀ hg ?_
  linear_combination c * l * V0 * S * h - 1000 * V0 * F * hT

lemma dt_prod {f1 f2 f3 f4 q1 q2 q3 q4 r1 r2 r3 r4 K g : ℝ} (h1 : f1 * q1 = r1) (h2 : f2 * q2 = r2) (h3 : f3 * q3 = r3)
    (h4 : f4 * q4 = r4) (h : K * g = r1 * r2 * r3 * r4) : K * g = (f1 * f2 * f3 * f4) * (((q1 * q2) * q3) * q4) := by
  rw [h, ← h1, ← h2, ← h3, ← h4]; ring

lemma dt_diff {d a b x y : ℝ} (hx : x ^ 3 * (1 - d * a) = 1) (hy : y ^ 3 * (1 - d * b) = 1) :
    (x - y) * dq y x = d * (a - b) * (x ^ 3 * y ^ 3) := by
  unfold dq
  linear_combination y ^ 3 * hx - x ^ 3 * hy

lemma dt_neg' (d t c1 s0 s1 s2 s3 : ℝ) (hd : 0 < d ∧ d ≤ 0.7) (ht : 0 < t ∧ t ≤ 0.21 + 0.31 * d)
    (hc1 : 0.8535533 ≤ c1 ∧ c1 ≤ 0.8535534) (p0 : 0 < s0) (p1 : 0 < s1) (p2 : 0 < s2) (p3 : 0 < s3)
    (h0 : |s0 - root d| ≤ 0.0001) (h1 : |s1 - root (d * c1)| ≤ 0.0001) (h2 : |s2 - root (d * 0.5)| ≤ 0.0001)
    (h3 : |s3 - root (d * t)| ≤ 0.0001) :
    ∃ T0 T1 T2 T3 T4 : ℝ,
      T0 * ((1 - c1) * 0.5 * (1 - t) * s0 ^ 9) = t * (0.5 - t) * (t ^ 2 / (t ^ 2 + 1.5625 * (t - 1) ^ 2)) *
        (((dq s1 s0 * dq s2 s0) * dq s3 s0) * dq 1 s0) * (dS s1 s2 s3 1 / 1000) ∧
      T1 * ((1 - c1) * (c1 - 0.5) * c1 * (c1 - t) * s1 ^ 9) = t * (0.5 - t) * (t ^ 2 / (t ^ 2 + 1.5625 * (t - c1) ^ 2)) *
        (((dq s1 s0 * dq s2 s1) * dq s3 s1) * dq 1 s1) * (dS s0 s2 s3 1 / 1000) ∧
      T2 * (0.5 * (c1 - 0.5) * 0.5 * (0.5 - t) * s2 ^ 9) = t * (0.5 - t) * (t ^ 2 / (t ^ 2 + 1.5625 * (0.5 - t) ^ 2)) *
        (((dq s2 s0 * dq s2 s1) * dq s3 s2) * dq 1 s2) * (dS s0 s1 s3 1 / 1000) ∧
      T3 * ((1 - t) * (c1 - t) * (0.5 - t) * t * s3 ^ 9) = t * (0.5 - t) * 1 *
        (((dq s3 s0 * dq s3 s1) * dq s3 s2) * dq 1 s3) * (dS s0 s1 s2 1 / 1000) ∧
      T4 * (c1 * 0.5 * t) = t * (0.5 - t) * (1 / 2.5625) *
        (((dq 1 s0 * dq 1 s1) * dq 1 s2) * dq 1 s3) * (dS s0 s1 s2 s3 / 1000) ∧
      T0 - T1 + T2 - T3 + T4 < 0 := by
  obtain ⟨d0, d7⟩ := hd
  obtain ⟨t0, t5⟩ := ht
  have hneg := dt_neg d (t / (0.21 + 0.31 * d)) t c1 s0 s1 s2 s3 ⟨d0.le, d7⟩
    ⟨by positivity, by rw [div_le_one (by linarith)]; exact t5⟩ hc1 (by rw [div_mul_cancel₀]; linarith) h0 h1 h2 h3
  have ht5 : t < 0.5 := by norm_num at t5 d7 ⊢; linarith
  have c12 : c1 < 1 := by norm_num at hc1; linarith
  have c15 : 0.5 < c1 := by norm_num at hc1 ⊢; linarith
  have n1 : 1 - c1 ≠ 0 := by linarith
  have n2 : 1 - t ≠ 0 := by norm_num at ht5; linarith
  have n3 : c1 - t ≠ 0 := by linarith
  have n4 : c1 - 0.5 ≠ 0 := by linarith
  have n5 : 0.5 - t ≠ 0 := by linarith
  have n6 : c1 ≠ 0 := by linarith
  have n7 := t0.ne'
  generalize t ^ 2 / (t ^ 2 + 1.5625 * (t - 1) ^ 2) = l0 at *
  generalize t ^ 2 / (t ^ 2 + 1.5625 * (t - c1) ^ 2) = l1 at *
  generalize t ^ 2 / (t ^ 2 + 1.5625 * (0.5 - t) ^ 2) = l2 at *
  generalize dS s1 s2 s3 1 = S0 at *
  generalize dS s0 s2 s3 1 = S1 at *
  generalize dS s0 s1 s3 1 = S2 at *
  generalize dS s0 s1 s2 1 = S3 at *
  generalize dS s0 s1 s2 s3 = S4 at *
  generalize ((dq s1 s0 * dq s2 s0) * dq s3 s0) * dq 1 s0 = Q0 at *
  generalize ((dq s1 s0 * dq s2 s1) * dq s3 s1) * dq 1 s1 = Q1 at *
  generalize ((dq s2 s0 * dq s2 s1) * dq s3 s2) * dq 1 s2 = Q2 at *
  generalize ((dq s3 s0 * dq s3 s1) * dq s3 s2) * dq 1 s3 = Q3 at *
  generalize ((dq 1 s0 * dq 1 s1) * dq 1 s2) * dq 1 s3 = Q4 at *
  refine ⟨1 / ((1 - c1) * 0.5 * (1 - t)) * (t * (0.5 - t)) * l0 * Q0 / s0 ^ 9 * (S0 / 1000),
    1 / ((1 - c1) * (c1 - 0.5) * c1 * (c1 - t)) * (t * (0.5 - t)) * l1 * Q1 / s1 ^ 9 * (S1 / 1000),
    1 / (0.5 * (c1 - 0.5) * 0.5) * t * l2 * Q2 / s2 ^ 9 * (S2 / 1000),
    1 / ((1 - t) * (c1 - t)) * Q3 / s3 ^ 9 * (S3 / 1000),
    1 / (c1 * 0.5) * (0.5 - t) * (1 / 2.5625) * Q4 * (S4 / 1000), ?_, ?_, ?_, ?_, ?_, ?_⟩
  · field_simp
  · field_simp
  · field_simp
  · field_simp
  · field_simp
  · refine lt_of_eq_of_lt ?_ (neg_pos.1 hneg)
    ring

lemma dt_det (d t c1 s0 s1 s2 s3 : ℝ) (hd : 0 < d ∧ d ≤ 0.7) (ht : 0 < t ∧ t ≤ 0.21 + 0.31 * d)
    (hc1 : 0.8535533 ≤ c1 ∧ c1 ≤ 0.8535534) (p0 : 0 < s0) (p1 : 0 < s1) (p2 : 0 < s2) (p3 : 0 < s3)
    (q0 : s0 ^ 3 * (1 - d * 1) = 1) (q1 : s1 ^ 3 * (1 - d * c1) = 1) (q2 : s2 ^ 3 * (1 - d * 0.5) = 1)
    (q3 : s3 ^ 3 * (1 - d * t) = 1)
    (h0 : |s0 - root d| ≤ 0.0001) (h1 : |s1 - root (d * c1)| ≤ 0.0001) (h2 : |s2 - root (d * 0.5)| ≤ 0.0001)
    (h3 : |s3 - root (d * t)| ≤ 0.0001) :
    (!![1, s0, s0 ^ 6, s0 ^ 12, t ^ 2 / (t ^ 2 + 1.5625 * (t - 1) ^ 2);
        1, s1, s1 ^ 6, s1 ^ 12, t ^ 2 / (t ^ 2 + 1.5625 * (t - c1) ^ 2);
        1, s2, s2 ^ 6, s2 ^ 12, t ^ 2 / (t ^ 2 + 1.5625 * (0.5 - t) ^ 2);
        1, s3, s3 ^ 6, s3 ^ 12, 1;
        1, 1, 1 ^ 6, 1 ^ 12, 1 / 2.5625] : Matrix (Fin 5) (Fin 5) ℝ).det ≠ 0 := by
  obtain ⟨d0, d7⟩ := hd
  obtain ⟨t0, t5⟩ := ht
  have q4 : (1 : ℝ) ^ 3 * (1 - d * 0) = 1 := by ring
  obtain ⟨T0, T1, T2, T3, T4, t0', t1', t2', t3', t4', hneg⟩ := dt_neg' d t c1 s0 s1 s2 s3 ⟨d0, d7⟩ ⟨t0, t5⟩ hc1 p0 p1 p2 p3
    h0 h1 h2 h3
  have hdet := det_five ![s0, s1, s2, s3, 1] ![s0 ^ 6, s1 ^ 6, s2 ^ 6, s3 ^ 6, 1 ^ 6]
    ![s0 ^ 12, s1 ^ 12, s2 ^ 12, s3 ^ 12, 1 ^ 12] ![t ^ 2 / (t ^ 2 + 1.5625 * (t - 1) ^ 2),
      t ^ 2 / (t ^ 2 + 1.5625 * (t - c1) ^ 2), t ^ 2 / (t ^ 2 + 1.5625 * (0.5 - t) ^ 2), 1, 1 / 2.5625]
  simp only [Matrix.cons_val] at hdet
  rw [hdet]
  rw [alt4_pow, alt4_pow, alt4_pow, alt4_pow, alt4_pow]
  have e01 := dt_diff q0 q1
  have e02 := dt_diff q0 q2
  have e03 := dt_diff q0 q3
  have e04 := dt_diff q0 q4
  have e12 := dt_diff q1 q2
  have e13 := dt_diff q1 q3
  have e14 := dt_diff q1 q4
  have e23 := dt_diff q2 q3
  have e24 := dt_diff q2 q4
  have e34 := dt_diff q3 q4
  have ht5 : t < 0.5 := by linarith
  have c12 : c1 < 1 := by norm_num at hc1; linarith
  have c15 : 0.5 < c1 := by norm_num at hc1 ⊢; linarith
  have n1 : 1 - c1 ≠ 0 := by linarith
  have n2 : 1 - t ≠ 0 := by linarith
  have n3 : c1 - t ≠ 0 := by linarith
  have n4 : c1 - 0.5 ≠ 0 := by linarith
  have n5 : 0.5 - t ≠ 0 := by linarith
  have n6 : c1 ≠ 0 := by linarith
  have n7 := t0.ne'
  -- the differences are positive
  have lt_of {x y r : ℝ} {q : ℝ} (h : (x - y) * q = r) (hr : 0 < r) (hq : 0 < q) : x - y ≠ 0 := by
    rintro h'
    rw [h', zero_mul] at h
    linarith
  have hq {x y : ℝ} (hx : 0 < x) (hy : 0 < y) : 0 < dq x y := by unfold dq; positivity
  have f01 := lt_of e01 (mul_pos (mul_pos d0 (by linarith)) (by positivity)) (hq p1 p0)
  have f02 := lt_of e02 (mul_pos (mul_pos d0 (by norm_num)) (by positivity)) (hq p2 p0)
  have f03 := lt_of e03 (mul_pos (mul_pos d0 (by linarith)) (by positivity)) (hq p3 p0)
  have f04 := lt_of e04 (mul_pos (mul_pos d0 (by norm_num)) (by positivity)) (hq one_pos p0)
  have f12 := lt_of e12 (mul_pos (mul_pos d0 (by linarith)) (by positivity)) (hq p2 p1)
  have f13 := lt_of e13 (mul_pos (mul_pos d0 (by linarith)) (by positivity)) (hq p3 p1)
  have f14 := lt_of e14 (mul_pos (mul_pos d0 (by linarith)) (by positivity)) (hq one_pos p1)
  have f23 := lt_of e23 (mul_pos (mul_pos d0 (by linarith)) (by positivity)) (hq p3 p2)
  have f24 := lt_of e24 (mul_pos (mul_pos d0 (by norm_num)) (by positivity)) (hq one_pos p2)
  have f34 := lt_of e34 (mul_pos (mul_pos d0 (by linarith)) (by positivity)) (hq one_pos p3)
  -- the five terms
  have k0 := dt_prod (K := d ^ 4 * (s0 * s1 * s2 * s3) ^ 3) (g := (1 - c1) * 0.5 * (1 - t) * s0 ^ 9) e01 e02 e03 e04 (by ring)
  have k1 := dt_prod (K := d ^ 4 * (s0 * s1 * s2 * s3) ^ 3) (g := (1 - c1) * (c1 - 0.5) * c1 * (c1 - t) * s1 ^ 9)
    e01 e12 e13 e14 (by ring)
  have k2 := dt_prod (K := d ^ 4 * (s0 * s1 * s2 * s3) ^ 3) (g := 0.5 * (c1 - 0.5) * 0.5 * (0.5 - t) * s2 ^ 9)
    e02 e12 e23 e24 (by ring)
  have k3 := dt_prod (K := d ^ 4 * (s0 * s1 * s2 * s3) ^ 3) (g := (1 - t) * (c1 - t) * (0.5 - t) * t * s3 ^ 9)
    e03 e13 e23 e34 (by ring)
  have k4 := dt_prod (K := d ^ 4 * (s0 * s1 * s2 * s3) ^ 3) (g := c1 * 0.5 * t) e04 e14 e24 e34 (by ring)
  have m0 := dt_term (V0 := (s3 - 1) * (s2 - 1) * (s1 - 1) * (s2 - s3) * (s1 - s3) * (s1 - s2)) k0 t0'
    (mul_ne_zero (mul_ne_zero (mul_ne_zero n1 (by norm_num)) n2) (pow_ne_zero _ p0.ne'))
  have m1 := dt_term (V0 := (s3 - 1) * (s2 - 1) * (s0 - 1) * (s2 - s3) * (s0 - s3) * (s0 - s2)) k1 t1'
    (mul_ne_zero (mul_ne_zero (mul_ne_zero (mul_ne_zero n1 n4) n6) n3) (pow_ne_zero _ p1.ne'))
  have m2 := dt_term (V0 := (s3 - 1) * (s1 - 1) * (s0 - 1) * (s1 - s3) * (s0 - s3) * (s0 - s1)) k2 t2'
    (mul_ne_zero (mul_ne_zero (mul_ne_zero (mul_ne_zero (by norm_num) n4) (by norm_num)) n5) (pow_ne_zero _ p2.ne'))
  have m3 := dt_term (V0 := (s2 - 1) * (s1 - 1) * (s0 - 1) * (s1 - s2) * (s0 - s2) * (s0 - s1)) k3 t3'
    (mul_ne_zero (mul_ne_zero (mul_ne_zero (mul_ne_zero n2 n3) n5) n7) (pow_ne_zero _ p3.ne'))
  have m4 := dt_term (V0 := (s2 - s3) * (s1 - s3) * (s0 - s3) * (s1 - s2) * (s0 - s2) * (s0 - s1)) k4 t4'
    (mul_ne_zero (mul_ne_zero n6 (by norm_num)) n7)
  clear k0 k1 k2 k3 k4 e01 e02 e03 e04 e12 e13 e14 e23 e24 e34 t0' t1' t2' t3' t4' hdet q0 q1 q2 q3 q4
  unfold dS at m0 m1 m2 m3 m4
  generalize hsym [s2, s3, 1] 4 * hsym [s1, s2, s3, 1] 9 - hsym [s1, s2, s3, 1] 3 * hsym [s2, s3, 1] 10 = S0 at *
  generalize hsym [s2, s3, 1] 4 * hsym [s0, s2, s3, 1] 9 - hsym [s0, s2, s3, 1] 3 * hsym [s2, s3, 1] 10 = S1 at *
  generalize hsym [s1, s3, 1] 4 * hsym [s0, s1, s3, 1] 9 - hsym [s0, s1, s3, 1] 3 * hsym [s1, s3, 1] 10 = S2 at *
  generalize hsym [s1, s2, 1] 4 * hsym [s0, s1, s2, 1] 9 - hsym [s0, s1, s2, 1] 3 * hsym [s1, s2, 1] 10 = S3 at *
  generalize hsym [s1, s2, s3] 4 * hsym [s0, s1, s2, s3] 9 - hsym [s0, s1, s2, s3] 3 * hsym [s1, s2, s3] 10 = S4 at *
  generalize t ^ 2 / (t ^ 2 + 1.5625 * (t - 1) ^ 2) = l0 at *
  generalize t ^ 2 / (t ^ 2 + 1.5625 * (t - c1) ^ 2) = l1 at *
  generalize t ^ 2 / (t ^ 2 + 1.5625 * (0.5 - t) ^ 2) = l2 at *
  generalize d ^ 4 * (s0 * s1 * s2 * s3) ^ 3 * (t * (0.5 - t)) = K at *
  clear h0 h1 h2 h3
  generalize s0 - s1 = g01 at *
  generalize s0 - s2 = g02 at *
  generalize s0 - s3 = g03 at *
  generalize s0 - 1 = g04 at *
  generalize s1 - s2 = g12 at *
  generalize s1 - s3 = g13 at *
  generalize s1 - 1 = g14 at *
  generalize s2 - s3 = g23 at *
  generalize s2 - 1 = g24 at *
  generalize s3 - 1 = g34 at *
  intro h
  have hV : g01 * g02 * g03 * g04 * g12 * g13 * g14 * g23 * g24 * g34 ≠ 0 :=
    mul_ne_zero (mul_ne_zero (mul_ne_zero (mul_ne_zero (mul_ne_zero (mul_ne_zero (mul_ne_zero (mul_ne_zero (mul_ne_zero
      f01 f02) f03) f04) f12) f13) f14) f23) f24) f34
  refine (mul_ne_zero (mul_ne_zero (by norm_num : (1000 : ℝ) ≠ 0) hV) hneg.ne) ?_
  linear_combination K * h - m0 + m1 - m2 + m3 - m4
lemma dt_root (x p : ℝ) (hx : 0 ≤ x ∧ x ≤ 0.8)
    (hp : p = root x) :
    0 < 1 - (p - 0.0001) ^ 3 * (1 - x) := by
  unfold root at hp
  affine_bnb [hx] [hp]

lemma dt_root' (x p : ℝ) (hx : 0 ≤ x ∧ x ≤ 0.8)
    (hp : p = root x) :
    0 < (p + 0.0001) ^ 3 * (1 - x) - 1 := by
  unfold root at hp
  affine_bnb [hx] [hp]
lemma root_close {x s : ℝ} (hx : 0 ≤ x ∧ x ≤ 0.8) (h : s ^ 3 * (1 - x) = 1) : |s - root x| ≤ 0.0001 := by
  have h1 := dt_root x _ hx rfl
  have h2 := dt_root' x _ hx rfl
  have hp : 0 < 1 - x := by norm_num at hx; linarith
  have k1 : (root x - 0.0001) ^ 3 < s ^ 3 := lt_of_mul_lt_mul_right (by linarith) hp.le
  have k2 : s ^ 3 < (root x + 0.0001) ^ 3 := lt_of_mul_lt_mul_right (by linarith) hp.le
  have o : Odd 3 := by decide
  have k1' := o.pow_lt_pow.1 k1
  have k2' := o.pow_lt_pow.1 k2
  exact abs_le.2 ⟨by linarith, by linarith⟩

end XAS
end Ripple

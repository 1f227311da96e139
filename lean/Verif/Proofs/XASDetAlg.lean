/-
  Helper lemmas: the collocation determinant of the ringdown phase fit as a combination of divided differences.
-/
import Mathlib.LinearAlgebra.Matrix.Determinant.Basic
import Mathlib.Data.Real.Basic
import Mathlib.Tactic.LinearCombination
import Mathlib.Tactic.NormNum
import Mathlib.Tactic.Ring
import Mathlib.LinearAlgebra.Matrix.Notation

namespace Ripple
namespace XAS

/-- complete homogeneous symmetric polynomials -/
def hsym : List ℝ → ℕ → ℝ
  | _, 0 => 1
  | [], _ + 1 => 0
  | x :: l, k + 1 => hsym l (k + 1) + x * hsym (x :: l) k

lemma hsym_zero (l : List ℝ) : hsym l 0 = 1 := by cases l <;> rw [hsym]

lemma hsym_succ (x : ℝ) (l : List ℝ) (k : ℕ) : hsym (x :: l) (k + 1) = hsym l (k + 1) + x * hsym (x :: l) k := by
  conv_lhs => rw [hsym]

/-- they are the divided differences of the powers -/
lemma hsym_dd (x y : ℝ) (l : List ℝ) (k : ℕ) :
    hsym (x :: l) (k + 1) - hsym (y :: l) (k + 1) = (x - y) * hsym (x :: y :: l) k := by
  induction k with
  | zero => simp only [hsym_succ, hsym_zero]; ring
  | succ k ih =>
    rw [hsym_succ x l, hsym_succ y l, hsym_succ x (y :: l) k]
    linear_combination x * ih

lemma hsym_one (x : ℝ) (k : ℕ) : hsym [x] k = x ^ k := by
  induction k with
  | zero => rw [hsym_zero, pow_zero]
  | succ k ih => rw [hsym_succ, ih, pow_succ]; simp only [hsym]; ring

/-- Newton form of a power at four nodes -/
lemma newton_pow (a b c d : ℝ) (n : ℕ) :
    b ^ (n + 3) = a ^ (n + 3) + (b - a) * hsym [b, a] (n + 2) ∧
    c ^ (n + 3) = a ^ (n + 3) + (c - a) * (hsym [b, a] (n + 2) + (c - b) * hsym [c, b, a] (n + 1)) ∧
    d ^ (n + 3) = a ^ (n + 3) + (d - a) * (hsym [b, a] (n + 2) + (d - b) * (hsym [c, b, a] (n + 1) +
      (d - c) * hsym [d, c, b, a] n)) := by
  have e := fun x => hsym_one x (n + 3)
  have k1 := hsym_dd b a [] (n + 2)
  have k2 := hsym_dd c a [] (n + 2)
  have k3 := hsym_dd d a [] (n + 2)
  have k4 := hsym_dd c b [a] (n + 1)
  have k5 := hsym_dd d b [a] (n + 1)
  have k6 := hsym_dd d c [b, a] n
  rw [e, e] at k1 k2 k3
  refine ⟨by linear_combination k1, by linear_combination k2 + (c - a) * k4, ?_⟩
  linear_combination k3 + (d - a) * k5 + (d - a) * (d - b) * k6

/-- a 4 by 4 determinant with columns 1, x, p, r -/
def alt4 (a b c d p0 p1 p2 p3 r0 r1 r2 r3 : ℝ) : ℝ :=
  (b - a) * ((p2 - p0) * (r3 - r0) - (p3 - p0) * (r2 - r0)) - (c - a) * ((p1 - p0) * (r3 - r0) - (p3 - p0) * (r1 - r0))
    + (d - a) * ((p1 - p0) * (r2 - r0) - (p2 - p0) * (r1 - r0))

lemma alt4_pow (a b c d : ℝ) : alt4 a b c d (a ^ 6) (b ^ 6) (c ^ 6) (d ^ 6) (a ^ 12) (b ^ 12) (c ^ 12) (d ^ 12) =
    (b - a) * (c - a) * (d - a) * (c - b) * (d - b) * (d - c) *
      (hsym [c, b, a] 4 * hsym [d, c, b, a] 9 - hsym [d, c, b, a] 3 * hsym [c, b, a] 10) := by
  obtain ⟨p1, p2, p3⟩ := newton_pow a b c d 3
  obtain ⟨r1, r2, r3⟩ := newton_pow a b c d 9
  norm_num at p1 p2 p3 r1 r2 r3
  rw [p1, p2, p3, r1, r2, r3]
  generalize hsym [b, a] 5 = x1
  generalize hsym [c, b, a] 4 = x2
  generalize hsym [d, c, b, a] 3 = x3
  generalize hsym [b, a] 11 = y1
  generalize hsym [c, b, a] 10 = y2
  generalize hsym [d, c, b, a] 9 = y3
  unfold alt4
  ring

/-- expansion of the collocation determinant along its last column -/
lemma det_five (x p r l : Fin 5 → ℝ) :
    (!![1, x 0, p 0, r 0, l 0; 1, x 1, p 1, r 1, l 1; 1, x 2, p 2, r 2, l 2; 1, x 3, p 3, r 3, l 3;
      1, x 4, p 4, r 4, l 4] : Matrix (Fin 5) (Fin 5) ℝ).det =
    l 0 * alt4 (x 4) (x 3) (x 2) (x 1) (p 4) (p 3) (p 2) (p 1) (r 4) (r 3) (r 2) (r 1)
    - l 1 * alt4 (x 4) (x 3) (x 2) (x 0) (p 4) (p 3) (p 2) (p 0) (r 4) (r 3) (r 2) (r 0)
    + l 2 * alt4 (x 4) (x 3) (x 1) (x 0) (p 4) (p 3) (p 1) (p 0) (r 4) (r 3) (r 1) (r 0)
    - l 3 * alt4 (x 4) (x 2) (x 1) (x 0) (p 4) (p 2) (p 1) (p 0) (r 4) (r 2) (r 1) (r 0)
    + l 4 * alt4 (x 3) (x 2) (x 1) (x 0) (p 3) (p 2) (p 1) (p 0) (r 3) (r 2) (r 1) (r 0) := by
  unfold alt4
  simp [Matrix.det_succ_row_zero, Fin.sum_univ_succ, Fin.succAbove]
  ring
end XAS
end Ripple

/-
  Cubic splines: rows of the slope system, stability of the system on the grid of the quasi-normal-mode tables, bounds and
  monotonicity of one cubic piece.
-/
import Verif.Prelude.Scipy
import Verif.Proofs.Interp
import Mathlib.Algebra.BigOperators.Fin
import Mathlib.LinearAlgebra.Matrix.ToLinearEquiv
import Mathlib.Analysis.Calculus.Deriv.MeanValue
import Mathlib.Analysis.Calculus.Deriv.Pow
import Mathlib.Analysis.Calculus.Deriv.Mul
import Mathlib.Analysis.Calculus.Deriv.Add
import Mathlib.Tactic.Positivity
import Mathlib.Tactic.LinearCombination

namespace Ripple.Scipy

lemma fin_sum_ite {n : ℕ} (k : ℕ) (f : ℕ → ℝ) :
    ∑ j : Fin n, (if (j : ℕ) = k then f j else 0) = if k < n then f k else 0 := by
  rw [Fin.sum_univ_eq_sum_range (fun j => if j = k then f j else 0) n, Finset.sum_ite_eq']
  simp

lemma mulVec_row (x : List ℝ) (w : ℕ → ℝ) (i : Fin x.length) :
    (matrix x).mulVec (fun k => w k) i = diag x i * w i + (if (i : ℕ) + 1 < x.length then upper x i * w (i + 1) else 0) +
      (if 0 < (i : ℕ) then lower x i * w (i - 1) else 0) := by
  have hi := i.2
  unfold Matrix.mulVec dotProduct matrix
  simp only [add_mul, Finset.sum_add_distrib, ite_mul, zero_mul]
  congr 1
  · congr 1
    · rw [fin_sum_ite (i : ℕ) (fun j => diag x i * w j), if_pos hi]
    · rw [fin_sum_ite ((i : ℕ) + 1) (fun j => upper x i * w j)]
  · split_ifs with h0
    · have : ∀ j : Fin x.length, (if (j : ℕ) + 1 = i then lower x i * w j else 0) =
          if (j : ℕ) = i - 1 then lower x i * w j else 0 := by
        intro j
        congr 1
        simp only [eq_iff_iff]
        omega
      simp only [this]
      rw [fin_sum_ite ((i : ℕ) - 1) (fun j => lower x i * w j), if_pos (by omega)]
    · refine Finset.sum_eq_zero fun j _ => ?_
      rw [if_neg (by omega)]

/-- the grid of the quasi-normal-mode tables: spacing 2 inside, 1 for the two cells at each end -/
def H (i : ℕ) : ℝ := if i = 0 ∨ i = 1 ∨ i = 1000 ∨ i = 1001 then 1 else 2

/-- row `i` of the slope system on that grid -/
noncomputable def row (e : ℕ → ℝ) (i : ℕ) : ℝ :=
  if i = 0 then e 0 + 2 * e 1
  else if i = 1002 then 2 * e 1001 + e 1002
  else H i * e (i - 1) + 2 * (H (i - 1) + H i) * e i + H (i - 1) * e (i + 1)

/-- if all rows are small the vector is small -/
lemma row_stable (e : ℕ → ℝ) (r : ℝ) (h : ∀ i, i < 1003 → |row e i| ≤ r) : ∀ i, i < 1003 → |e i| ≤ 4 * r := by
  have hr : 0 ≤ r := (abs_nonneg _).trans (h 0 (by norm_num))
  have r0 := abs_le.1 (h 0 (by norm_num))
  have r1 := abs_le.1 (h 1 (by norm_num))
  have r2 := abs_le.1 (h 2 (by norm_num))
  have q0 := abs_le.1 (h 1002 (by norm_num))
  have q1 := abs_le.1 (h 1001 (by norm_num))
  have q2 := abs_le.1 (h 1000 (by norm_num))
  norm_num [row, H] at r0 r1 r2 q0 q1 q2
  obtain ⟨j, hj, hmax⟩ := Finset.exists_max_image (Finset.Icc 2 1000) (fun i => |e i|) ⟨2, by simp⟩
  rw [Finset.mem_Icc] at hj
  have hm : ∀ i, 2 ≤ i → i ≤ 1000 → |e i| ≤ |e j| := fun i a b => hmax i (Finset.mem_Icc.2 ⟨a, b⟩)
  have hE : |e j| ≤ 3 / 4 * r := by
    rcases eq_or_ne j 2 with rfl | h2
    · have := abs_le.1 (hm 3 (by norm_num) (by norm_num))
      rcases abs_cases (e 2) with ⟨a, -⟩ | ⟨a, -⟩ <;> rw [a] at this ⊢ <;> linarith
    rcases eq_or_ne j 1000 with rfl | h3
    · have := abs_le.1 (hm 999 (by norm_num) (by norm_num))
      rcases abs_cases (e 1000) with ⟨a, -⟩ | ⟨a, -⟩ <;> rw [a] at this ⊢ <;> linarith
    · have a1 := abs_le.1 (hm (j - 1) (by omega) (by omega))
      have a2 := abs_le.1 (hm (j + 1) (by omega) (by omega))
      have hrow := abs_le.1 (h j (by omega))
      have e1 : H j = 2 := by unfold H; rw [if_neg (by omega)]
      have e2 : H (j - 1) = 2 := by unfold H; rw [if_neg (by omega)]
      unfold row at hrow
      rw [if_neg (by omega), if_neg (by omega), e1, e2] at hrow
      rcases abs_cases (e j) with ⟨a, -⟩ | ⟨a, -⟩ <;> rw [a] at a1 a2 ⊢ <;> linarith
  have b2 := abs_le.1 ((hm 2 (by norm_num) (by norm_num)).trans hE)
  have b3 := abs_le.1 ((hm 1000 (by norm_num) (by norm_num)).trans hE)
  intro i hi
  by_cases c : 2 ≤ i ∧ i ≤ 1000
  · exact (hm i c.1 c.2).trans (by linarith)
  have : i = 0 ∨ i = 1 ∨ i = 1001 ∨ i = 1002 := by omega
  rcases this with rfl | rfl | rfl | rfl <;> rw [abs_le] <;> constructor <;> linarith

/-! ### one piece -/

/-- cubic Hermite polynomial on `[0,h]` in the form used by scipy -/
noncomputable def herm (h y0 y1 m0 m1 u : ℝ) : ℝ :=
  (m0 + m1 - 2 * ((y1 - y0) / h)) / h / h * u ^ 3 + (((y1 - y0) / h - m0) / h - (m0 + m1 - 2 * ((y1 - y0) / h)) / h) * u ^ 2
    + m0 * u + y0

lemma herm_zero (h y0 y1 m0 m1 : ℝ) : herm h y0 y1 m0 m1 0 = y0 := by simp [herm]

lemma herm_end {h : ℝ} (hh : h ≠ 0) (y0 y1 m0 m1 : ℝ) : herm h y0 y1 m0 m1 h = y1 := by
  unfold herm
  field_simp
  ring

lemma herm_neg (h y0 y1 m0 m1 u : ℝ) : herm h (-y0) (-y1) (-m0) (-m1) u = -herm h y0 y1 m0 m1 u := by
  unfold herm; ring

lemma herm_deriv {h : ℝ} (hh : h ≠ 0) (y0 y1 m0 m1 u : ℝ) : HasDerivAt (herm h y0 y1 m0 m1)
    (m0 * (1 - u / h) ^ 2 + m1 * (u / h) ^ 2 + 2 * (u / h) * (1 - u / h) * (3 * ((y1 - y0) / h) - m0 - m1)) u := by
  have h1 := ((((hasDerivAt_pow 3 u).const_mul ((m0 + m1 - 2 * ((y1 - y0) / h)) / h / h)).add
    ((hasDerivAt_pow 2 u).const_mul (((y1 - y0) / h - m0) / h - (m0 + m1 - 2 * ((y1 - y0) / h)) / h))).add
    ((hasDerivAt_id u).const_mul m0)).add_const y0
  refine (h1.congr_deriv ?_)
  simp
  field_simp
  ring

lemma herm_deriv_bounds {h L : ℝ} (hh : 0 < h) {y0 y1 m0 m1 u : ℝ} (h0 : 0 < m0) (h1 : 0 < m1)
    (h3 : m0 + m1 < 3 * ((y1 - y0) / h)) (hL0 : m0 ≤ L) (hL1 : m1 ≤ L) (hL : 3 * ((y1 - y0) / h) - m0 - m1 ≤ L)
    (hu : 0 ≤ u) (hu' : u ≤ h) :
    0 < m0 * (1 - u / h) ^ 2 + m1 * (u / h) ^ 2 + 2 * (u / h) * (1 - u / h) * (3 * ((y1 - y0) / h) - m0 - m1) ∧
    m0 * (1 - u / h) ^ 2 + m1 * (u / h) ^ 2 + 2 * (u / h) * (1 - u / h) * (3 * ((y1 - y0) / h) - m0 - m1) ≤ L := by
  have a : 0 ≤ u / h := by positivity
  have b : u / h ≤ 1 := by rw [div_le_one hh]; exact hu'
  generalize u / h = t at *
  generalize (y1 - y0) / h = s at *
  have p1 : 0 ≤ t * (1 - t) := mul_nonneg a (by linarith)
  constructor
  · have : 0 < m0 * (1 - t) ^ 2 + m1 * t ^ 2 := by
      rcases a.lt_or_eq with c | c
      · have : 0 < m1 * t ^ 2 := by positivity
        nlinarith [mul_nonneg h0.le (sq_nonneg (1 - t))]
      · rw [← c]; simpa using h0
    nlinarith [mul_nonneg p1 (show 0 ≤ 3 * s - m0 - m1 by linarith)]
  · nlinarith [mul_nonneg p1 (show 0 ≤ L - (3 * s - m0 - m1) by linarith),
      mul_nonneg (sq_nonneg (1 - t)) (show 0 ≤ L - m0 by linarith), mul_nonneg (sq_nonneg t) (show 0 ≤ L - m1 by linarith)]

/-- monotone piece with a Lipschitz bound -/
lemma herm_mono {h L : ℝ} (hh : 0 < h) {y0 y1 m0 m1 : ℝ} (h0 : 0 < m0) (h1 : 0 < m1)
    (h3 : m0 + m1 < 3 * ((y1 - y0) / h)) (hL0 : m0 ≤ L) (hL1 : m1 ≤ L) (hL : 3 * ((y1 - y0) / h) - m0 - m1 ≤ L)
    {u v : ℝ} (hu : 0 ≤ u) (huv : u < v) (hv : v ≤ h) :
    herm h y0 y1 m0 m1 u < herm h y0 y1 m0 m1 v ∧ herm h y0 y1 m0 m1 v - herm h y0 y1 m0 m1 u ≤ L * (v - u) := by
  obtain ⟨c, hc, e⟩ := exists_deriv_eq_slope (herm h y0 y1 m0 m1) huv
    (fun x _ => (herm_deriv hh.ne' y0 y1 m0 m1 x).continuousAt.continuousWithinAt)
    (fun x _ => (herm_deriv hh.ne' y0 y1 m0 m1 x).differentiableAt.differentiableWithinAt)
  rw [(herm_deriv hh.ne' y0 y1 m0 m1 c).deriv] at e
  have hb := herm_deriv_bounds hh h0 h1 h3 hL0 hL1 hL (u := c) (by linarith [hc.1]) (by linarith [hc.2])
  rw [e] at hb
  have hd : 0 < v - u := by linarith
  have h4 := hb.1
  have h5 := hb.2
  rw [lt_div_iff₀ hd] at h4
  rw [div_le_iff₀ hd] at h5
  constructor <;> linarith

/-- values of a piece without assumption on the slopes -/
lemma herm_crude {h : ℝ} (hh : 0 < h) {y0 y1 m0 m1 lo hi : ℝ} (l0 : lo ≤ y0) (l1 : lo ≤ y1) (h0 : y0 ≤ hi) (h1 : y1 ≤ hi)
    {u : ℝ} (hu : 0 ≤ u) (hu' : u ≤ h) :
    lo - h * (|m0| + |m1|) ≤ herm h y0 y1 m0 m1 u ∧ herm h y0 y1 m0 m1 u ≤ hi + h * (|m0| + |m1|) := by
  have a : 0 ≤ u / h := by positivity
  have b : u / h ≤ 1 := by rw [div_le_one hh]; exact hu'
  have e : herm h y0 y1 m0 m1 u = y0 * ((1 - u / h) ^ 2 * (1 + 2 * (u / h))) + y1 * ((u / h) ^ 2 * (3 - 2 * (u / h)))
      + h * (m0 * (u / h * (1 - u / h) ^ 2) - m1 * ((u / h) ^ 2 * (1 - u / h))) := by
    unfold herm
    have := hh.ne'
    field_simp
    ring
  rw [e]
  generalize u / h = t at *
  have w0 : 0 ≤ (1 - t) ^ 2 * (1 + 2 * t) := by positivity
  have w1 : 0 ≤ t ^ 2 * (3 - 2 * t) := mul_nonneg (sq_nonneg _) (by linarith)
  have ws : (1 - t) ^ 2 * (1 + 2 * t) + t ^ 2 * (3 - 2 * t) = 1 := by ring
  generalize (1 - t) ^ 2 * (1 + 2 * t) = p at *
  generalize t ^ 2 * (3 - 2 * t) = q at *
  have v0 : 0 ≤ t * (1 - t) ^ 2 := by positivity
  have v0' : t * (1 - t) ^ 2 ≤ 1 := by nlinarith [mul_nonneg a (show 0 ≤ 1 - t by linarith)]
  have v1 : 0 ≤ t ^ 2 * (1 - t) := mul_nonneg (sq_nonneg _) (by linarith)
  have v1' : t ^ 2 * (1 - t) ≤ 1 := by nlinarith [mul_nonneg a (show 0 ≤ 1 - t by linarith)]
  generalize t * (1 - t) ^ 2 = x at *
  generalize t ^ 2 * (1 - t) = z at *
  have k : |m0 * x - m1 * z| ≤ |m0| + |m1| := by
    refine (abs_sub _ _).trans (add_le_add ?_ ?_)
    · rw [abs_mul, abs_of_nonneg v0]; exact mul_le_of_le_one_right (abs_nonneg _) v0'
    · rw [abs_mul, abs_of_nonneg v1]; exact mul_le_of_le_one_right (abs_nonneg _) v1'
  have k' := abs_le.1 k
  have n1 := mul_le_mul_of_nonneg_left k'.1 hh.le
  have n2 := mul_le_mul_of_nonneg_left k'.2 hh.le
  obtain rfl : q = 1 - p := by linarith
  constructor
  · nlinarith [mul_nonneg w0 (sub_nonneg.2 l0), mul_nonneg w1 (sub_nonneg.2 l1)]
  · nlinarith [mul_nonneg w0 (sub_nonneg.2 h0), mul_nonneg w1 (sub_nonneg.2 h1)]

lemma piece_eq (x y : List ℝ) (i : ℕ) (u : ℝ) :
    piece x y i u = herm (dx x i) (y.getD i 0) (y.getD (i + 1) 0) (slopes x y i) (slopes x y (i + 1)) u := rfl

end Ripple.Scipy

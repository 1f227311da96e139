import Verif.Model.Match
import Mathlib.Algebra.Order.Round
import Mathlib.Tactic.FieldSimp
import Mathlib.Tactic.Linarith
import Mathlib.Tactic.Ring

namespace Ripple
open Jnp

lemma trunc_intCast (z : ℤ) : trunc (z : ℝ) = z := by
  unfold trunc; split_ifs <;> simp

lemma trunc_natCast (z : ℕ) : trunc (z : ℝ) = z := by
  have := trunc_intCast (z : ℤ); simpa using this

lemma fmod_mul (k : ℕ) {df : ℝ} (h : df ≠ 0) : fmod (k * df) df = 0 := by
  unfold fmod; rw [mul_div_cancel_right₀ _ h]; simp

/-- the grid `(a + j) * df`, `j = 0..n-1` -/
noncomputable def grid (a n : ℕ) (df : ℝ) : List ℝ := (List.range n).map fun j => ((a + j : ℕ) : ℝ) * df

lemma grid_length (a n : ℕ) (df : ℝ) : (grid a n df).length = n := by simp [grid]

lemma grid_succ (a n : ℕ) (df : ℝ) : grid a (n + 1) df = (a : ℝ) * df :: grid (a + 1) n df := by
  simp only [grid, List.range_succ_eq_map, List.map_cons, List.map_map, Nat.add_zero]
  congr 1
  apply List.map_congr_left
  intro j _
  simp only [Function.comp]
  congr 2
  omega

lemma diff_grid (a n : ℕ) (df : ℝ) : ∀ d ∈ diff (grid a n df), d = df := by
  induction n generalizing a with
  | zero => intro d hd; simp [grid, diff] at hd
  | succ n ih =>
    cases n with
    | zero => intro d hd; simp [grid, diff] at hd
    | succ n =>
      intro d hd
      have ih' := ih (a + 1)
      rw [grid_succ, grid_succ] at hd
      rw [grid_succ] at ih'
      simp only [diff, List.mem_cons] at hd
      rcases hd with hd | hd
      · rw [hd]; push_cast; ring
      · exact ih' d hd

lemma grid_index_zero (a n : ℕ) (df : ℝ) (hn : 1 ≤ n) : index (grid a n df) 0 = a * df := by
  obtain ⟨m, rfl⟩ : ∃ m, n = m + 1 := ⟨n - 1, by omega⟩
  rw [index, grid_length, grid_succ]
  simp

lemma grid_index_last (a n : ℕ) (df : ℝ) (hn : 1 ≤ n) : index (grid a n df) (-1) = ((a + n - 1 : ℕ) : ℝ) * df := by
  rw [index, grid_length]
  have h : (min (max (if (-1 : ℤ) < 0 then -1 + (n : ℤ) else -1) 0) ((n : ℤ) - 1)).toNat = n - 1 := by
    simp only [show (-1 : ℤ) < 0 by norm_num, if_true]
    omega
  simp only [h]
  rw [grid, List.getD_eq_getElem?_getD, List.getElem?_map, List.getElem?_range (by omega)]
  simp only [Option.map_some, Option.getD_some]
  congr 2
  omega

lemma grid_df (a n : ℕ) {df : ℝ} (hn : 2 ≤ n) :
    (((a + n - 1 : ℕ) : ℝ) * df - a * df) / ((n : ℝ) - 1) = df := by
  have h : ((a + n - 1 : ℕ) : ℝ) = a + n - 1 := by
    rw [Nat.cast_sub (by omega)]; push_cast; ring
  have h2 : (n : ℝ) - 1 ≠ 0 := by
    have : (2 : ℝ) ≤ n := by exact_mod_cast hn
    linarith
  rw [h]; field_simp; ring

lemma fmod_eq_zero_iff {x df : ℝ} (h : df ≠ 0) : fmod x df = 0 ↔ ∃ k : ℤ, x = k * df := by
  constructor
  · intro e
    exact ⟨⌊x / df⌋, by unfold fmod at e; linarith⟩
  · rintro ⟨k, rfl⟩
    unfold fmod
    rw [mul_div_cancel_right₀ _ h]
    simp

lemma mem_diff_iff (fs : List ℝ) (d : ℝ) :
    d ∈ diff fs ↔ ∃ (j : ℕ) (h : j + 1 < fs.length), d = fs[j + 1] - fs[j] := by
  induction fs with
  | nil => simp [diff]
  | cons a l ih =>
    cases l with
    | nil => simp [diff]
    | cons b l =>
      simp only [diff, List.mem_cons, ih]
      constructor
      · rintro (rfl | ⟨j, h, rfl⟩)
        · exact ⟨0, by simp, rfl⟩
        · exact ⟨j + 1, by simp only [List.length_cons] at h ⊢; omega, rfl⟩
      · rintro ⟨j, h, rfl⟩
        cases j with
        | zero => exact Or.inl rfl
        | succ j => exact Or.inr ⟨j, by simp only [List.length_cons] at h ⊢; omega, rfl⟩

lemma index_first (fs : List ℝ) (hn : 2 ≤ fs.length) : index fs 0 = fs[0] := by
  have h : (min (max (if (0 : ℤ) < 0 then 0 + (fs.length : ℤ) else 0) 0) ((fs.length : ℤ) - 1)).toNat = 0 := by
    simp only [lt_irrefl, if_false]
    omega
  rw [index]
  simp only [h]
  rw [List.getD_eq_getElem?_getD, List.getElem?_eq_getElem (by omega), Option.getD_some]

lemma index_last (fs : List ℝ) (hn : 2 ≤ fs.length) : index fs (-1) = fs[fs.length - 1] := by
  have h : (min (max (if (-1 : ℤ) < 0 then -1 + (fs.length : ℤ) else -1) 0) ((fs.length : ℤ) - 1)).toNat =
      fs.length - 1 := by
    simp only [show (-1 : ℤ) < 0 by norm_num, if_true]
    omega
  rw [index]
  simp only [h]
  rw [List.getD_eq_getElem?_getD, List.getElem?_eq_getElem (by omega), Option.getD_some]

end Ripple

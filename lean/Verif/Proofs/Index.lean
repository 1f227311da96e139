/-
  JAX indexing and argmin.
-/
import Verif.Prelude.Jnp
import Mathlib.Data.List.GetD
import Mathlib.Data.List.Sort

namespace Ripple
namespace Jnp

lemma index_nat {l : List ℝ} {i : ℕ} (h : i < l.length) : index l (i : ℤ) = l.getD i 0 := by
  have h1 : ¬ ((i : ℤ) < 0) := by omega
  have : (min (max (i : ℤ) 0) ((l.length : ℤ) - 1)).toNat = i := by omega
  simp only [index, h1, if_false, this]
  rfl

lemma index_pred {l : List ℝ} {i : ℕ} (h : i < l.length) (h0 : 0 < i) : index l ((i : ℤ) - 1) = l.getD (i - 1) 0 := by
  have : ((i : ℤ) - 1) = ((i - 1 : ℕ) : ℤ) := by omega
  rw [this, index_nat (by omega)]

lemma index_last {l : List ℝ} (h : l ≠ []) : index l (-1) = l.getD (l.length - 1) 0 := by
  have hl : 0 < l.length := List.length_pos_of_ne_nil h
  have h1 : ((-1 : ℤ) < 0) := by omega
  have : (min (max (-1 + (l.length : ℤ)) 0) ((l.length : ℤ) - 1)).toNat = l.length - 1 := by omega
  simp only [index, h1, if_true, this]
  rfl

lemma getD_mem {l : List ℝ} {i : ℕ} (h : i < l.length) : l.getD i 0 ∈ l := by
  rw [List.getD_eq_getElem _ _ h]; exact List.getElem_mem _

lemma index_last_mem {l : List ℝ} (h : l ≠ []) : index l (-1) ∈ l := by
  rw [index_last h]; exact getD_mem (by have := List.length_pos_of_ne_nil h; omega)

lemma argmin_lt {l : List ℝ} (h : l ≠ []) : argmin l < l.length := by
  induction l with
  | nil => exact absurd rfl h
  | cons a l ih =>
    cases l with
    | nil => simp [argmin]
    | cons b l =>
      have := ih (by simp)
      simp only [argmin]
      split_ifs
      · simp
      · simp only [List.length_cons] at this ⊢; omega

/-- `argmin` returns the first index of a smallest element -/
lemma argmin_spec (l : List ℝ) :
    (∀ j, j < l.length → l.getD (argmin l) 0 ≤ l.getD j 0) ∧
    (∀ j, j < argmin l → l.getD (argmin l) 0 < l.getD j 0) := by
  induction l with
  | nil => simp [argmin]
  | cons a l ih =>
    cases l with
    | nil => simp [argmin]
    | cons b l =>
      obtain ⟨i1, i2⟩ := ih
      simp only [argmin]
      split_ifs with h
      · refine ⟨fun j hj => ?_, fun j hj => absurd hj (by omega)⟩
        cases j with
        | zero => exact le_rfl
        | succ j =>
          simp only [List.getD_cons_zero, List.getD_cons_succ]
          refine h.trans (i1 j ?_)
          simpa using hj
      · rw [not_le] at h
        refine ⟨fun j hj => ?_, fun j hj => ?_⟩
        · cases j with
          | zero => simpa only [List.getD_cons_zero, List.getD_cons_succ] using h.le
          | succ j =>
            simp only [List.getD_cons_succ] at *
            exact i1 j (by simpa using hj)
        · cases j with
          | zero => simpa only [List.getD_cons_zero, List.getD_cons_succ] using h
          | succ j =>
            simp only [List.getD_cons_succ] at *
            exact i2 j (by omega)

lemma argmin_unique {l : List ℝ} {i : ℕ} (hi : i < l.length) (h1 : ∀ j, j < l.length → l.getD i 0 ≤ l.getD j 0)
    (h2 : ∀ j, j < i → l.getD i 0 < l.getD j 0) : argmin l = i := by
  have hne : l ≠ [] := by rintro rfl; simp at hi
  obtain ⟨a1, a2⟩ := argmin_spec l
  rcases lt_trichotomy (argmin l) i with h | h | h
  · exact absurd (a1 i hi) (not_le.2 (h2 _ h))
  · exact h
  · exact absurd (h1 _ (argmin_lt hne)) (not_le.2 (a2 _ h))

lemma getD_map_abs (l : List ℝ) (g : ℝ → ℝ) {j : ℕ} (h : j < l.length) : (l.map g).getD j 0 = g (l.getD j 0) := by
  rw [List.getD_eq_getElem _ _ (by simpa using h), List.getD_eq_getElem _ _ h]
  simp

end Jnp
end Ripple

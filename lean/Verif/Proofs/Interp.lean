import Verif.Prelude.Jnp
import Verif.Spec.Table
import Mathlib.Data.List.GetD
import Mathlib.Topology.LocallyFinite
import Mathlib.Topology.Algebra.Order.Field
import Mathlib.Tactic.FieldSimp
import Mathlib.Tactic.Linarith

namespace Ripple
open Jnp

lemma GoodGrid.lt {eps : ℝ} (he : 0 ≤ eps) {xp : List ℝ} (h : GoodGrid eps xp) {i j : ℕ} (hij : i < j)
    (hj : j < xp.length) : xp.getD i 0 < xp.getD j 0 := by
  induction j with
  | zero => omega
  | succ j ih =>
    have h1 := h.2 j hj
    rcases Nat.lt_succ_iff_lt_or_eq.1 hij with h2 | h2
    · have := ih h2 (by omega); linarith
    · subst h2; linarith

lemma GoodGrid.le {eps : ℝ} (he : 0 ≤ eps) {xp : List ℝ} (h : GoodGrid eps xp) {i j : ℕ} (hij : i ≤ j)
    (hj : j < xp.length) : xp.getD i 0 ≤ xp.getD j 0 := by
  rcases hij.lt_or_eq with h1 | h1
  · exact (h.lt he h1 hj).le
  · rw [h1]

lemma countP_split (xp : List ℝ) (x : ℝ) (m : ℕ) (hm : m ≤ xp.length)
    (h1 : ∀ i, i < m → xp.getD i 0 ≤ x) (h2 : ∀ i, m ≤ i → i < xp.length → x < xp.getD i 0) :
    searchsortedRight xp x = m := by
  unfold searchsortedRight
  rw [← List.take_append_drop m xp, List.countP_append]
  have e1 : List.countP (fun a => decide (a ≤ x)) (xp.take m) = m := by
    rw [List.countP_eq_length.2, List.length_take, min_eq_left hm]
    intro a ha
    obtain ⟨i, hi, rfl⟩ := List.mem_iff_getElem.1 ha
    rw [List.length_take, min_eq_left hm] at hi
    have := h1 i hi
    rw [List.getD_eq_getElem _ _ (by omega)] at this
    simpa using this
  have e2 : List.countP (fun a => decide (a ≤ x)) (xp.drop m) = 0 := by
    rw [List.countP_eq_zero]
    intro a ha
    obtain ⟨i, hi, rfl⟩ := List.mem_iff_getElem.1 ha
    rw [List.length_drop] at hi
    have := h2 (m + i) (by omega) (by omega)
    rw [List.getD_eq_getElem _ _ (by omega)] at this
    simpa using this
  rw [e1, e2, add_zero]

lemma GoodGrid.search {eps : ℝ} (he : 0 ≤ eps) {xp : List ℝ} (h : GoodGrid eps xp) {k : ℕ} {x : ℝ}
    (hk : k + 1 < xp.length) (h1 : xp.getD k 0 ≤ x) (h2 : x < xp.getD (k + 1) 0) :
    searchsortedRight xp x = k + 1 := by
  apply countP_split xp x (k + 1) hk.le
  · intro i hi; exact le_trans (h.le he (by omega) (by omega)) h1
  · intro i hi hi'; exact lt_of_lt_of_le h2 (h.le he hi hi')

lemma GoodGrid.search_last {eps : ℝ} (he : 0 ≤ eps) {xp : List ℝ} (h : GoodGrid eps xp) {x : ℝ}
    (h1 : xp.getD (xp.length - 1) 0 ≤ x) : searchsortedRight xp x = xp.length := by
  have := h.1
  apply countP_split xp x xp.length le_rfl
  · intro i hi; exact le_trans (h.le he (by omega) (by omega)) h1
  · intro i hi hi'; omega

/-- every point of the range lies in a cell -/
lemma GoodGrid.exists_cell {xp : List ℝ} {x : ℝ} (h1 : xp.getD 0 0 ≤ x) :
    ∀ m, m < xp.length → x < xp.getD m 0 → ∃ k, k + 1 ≤ m ∧ xp.getD k 0 ≤ x ∧ x < xp.getD (k + 1) 0 := by
  intro m
  induction m with
  | zero => intro _ h; linarith
  | succ m ih =>
    intro hm hx
    by_cases hc : x < xp.getD m 0
    · obtain ⟨k, hk, h⟩ := ih (by omega) hc
      exact ⟨k, by omega, h⟩
    · exact ⟨m, le_rfl, not_lt.1 hc, hx⟩

lemma interpX_cell {eps : ℝ} (he : 0 ≤ eps) {xp : List ℝ} (h : GoodGrid eps xp) {k : ℕ} {x : ℝ}
    (fp : List XR) (l r : XR) (hk : k + 1 < xp.length) (h1 : xp.getD k 0 ≤ x) (h2 : x < xp.getD (k + 1) 0) :
    interpX eps x xp fp l r = fp.getD k .nan +
      XR.fin ((x - xp.getD k 0) / (xp.getD (k + 1) 0 - xp.getD k 0)) * (fp.getD (k + 1) .nan - fp.getD k .nan) := by
  have hs := h.search he hk h1 h2
  have hi : min (max (k + 1) 1) (xp.length - 1) = k + 1 := by omega
  have hgap := h.2 k hk
  have h0 : ¬ x < xp.getD 0 0 := not_lt.2 (le_trans (h.le he (Nat.zero_le k) (by omega)) h1)
  have hl : ¬ xp.getD (xp.length - 1) 0 < x :=
    not_lt.2 (le_trans h2.le (h.le he (by omega) (by omega)))
  have hd : ¬ |xp.getD (k + 1) 0 - xp.getD k 0| ≤ eps := by
    rw [abs_of_pos (by linarith)]; linarith
  simp only [interpX, hs, hi, Nat.add_sub_cancel, if_neg h0, if_neg hl, if_neg hd]

lemma interpX_last {eps : ℝ} (he : 0 ≤ eps) {xp : List ℝ} (h : GoodGrid eps xp)
    (fp : List XR) (l r : XR) :
    interpX eps (xp.getD (xp.length - 1) 0) xp fp l r = fp.getD (xp.length - 2) .nan +
      XR.fin 1 * (fp.getD (xp.length - 1) .nan - fp.getD (xp.length - 2) .nan) := by
  have hlen := h.1
  have hs := h.search_last he le_rfl
  have hi : min (max xp.length 1) (xp.length - 1) = xp.length - 1 := by omega
  have hi2 : xp.length - 1 - 1 = xp.length - 2 := by omega
  have hgap := h.2 (xp.length - 2) (by omega)
  rw [show xp.length - 2 + 1 = xp.length - 1 by omega] at hgap
  have h0 : ¬ xp.getD (xp.length - 1) 0 < xp.getD 0 0 := not_lt.2 (h.le he (by omega) (by omega))
  have hd : ¬ |xp.getD (xp.length - 1) 0 - xp.getD (xp.length - 2) 0| ≤ eps := by
    rw [abs_of_pos (by linarith)]; linarith
  have hone : (xp.getD (xp.length - 1) 0 - xp.getD (xp.length - 2) 0) /
      (xp.getD (xp.length - 1) 0 - xp.getD (xp.length - 2) 0) = 1 := div_self (by linarith)
  simp only [interpX, hs, hi, hi2, if_neg h0, if_neg hd, lt_irrefl, if_false, hone]

lemma interpX_left (eps : ℝ) {xp : List ℝ} {x : ℝ} (fp : List XR) (l r : XR)
    (hx : x < xp.getD 0 0) (hx' : ¬ xp.getD (xp.length - 1) 0 < x) :
    interpX eps x xp fp l r = l := by
  simp only [interpX, if_pos hx, if_neg hx']

lemma interpX_right (eps : ℝ) {xp : List ℝ} {x : ℝ} (fp : List XR) (l r : XR)
    (hx : xp.getD (xp.length - 1) 0 < x) : interpX eps x xp fp l r = r := by
  simp only [interpX, if_pos hx]

/-! real tables -/

lemma interp_cell {eps : ℝ} (he : 0 ≤ eps) {xp : List ℝ} (h : GoodGrid eps xp) {k : ℕ} {x : ℝ}
    (fp : List ℝ) (hk : k + 1 < xp.length) (h1 : xp.getD k 0 ≤ x) (h2 : x ≤ xp.getD (k + 1) 0) :
    interp eps x xp fp = fp.getD k 0 +
      (x - xp.getD k 0) / (xp.getD (k + 1) 0 - xp.getD k 0) * (fp.getD (k + 1) 0 - fp.getD k 0) := by
  have h0 : ¬ x < xp.getD 0 0 := not_lt.2 (le_trans (h.le he (Nat.zero_le k) (by omega)) h1)
  have hl : ¬ xp.getD (xp.length - 1) 0 < x :=
    not_lt.2 (le_trans h2 (h.le he (by omega) (by omega)))
  have hgap := h.2 k hk
  have hd : ¬ |xp.getD (k + 1) 0 - xp.getD k 0| ≤ eps := by
    rw [abs_of_pos (by linarith)]; linarith
  rcases h2.lt_or_eq with h2 | h2
  · have hs := h.search he hk h1 h2
    have hi : min (max (k + 1) 1) (xp.length - 1) = k + 1 := by omega
    simp only [interp, hs, hi, Nat.add_sub_cancel, if_neg h0, if_neg hl, if_neg hd]
  · by_cases hk2 : k + 1 + 1 < xp.length
    · have hgap2 := h.2 (k + 1) hk2
      have hs := h.search he hk2 h2.ge (by linarith)
      have hi : min (max (k + 1 + 1) 1) (xp.length - 1) = k + 1 + 1 := by omega
      have hd2 : ¬ |xp.getD (k + 1 + 1) 0 - xp.getD (k + 1) 0| ≤ eps := by
        rw [abs_of_pos (by linarith)]; linarith
      simp only [interp, hs, hi, Nat.add_sub_cancel, if_neg h0, if_neg hl, if_neg hd2]
      rw [h2, sub_self, zero_div, zero_mul, add_zero, div_self (by linarith)]
      ring
    · have hkl : k + 1 = xp.length - 1 := by omega
      have hs := h.search_last he (x := x) (by rw [← hkl]; exact h2.ge)
      have hi : min (max xp.length 1) (xp.length - 1) = k + 1 := by omega
      simp only [interp, hs, hi, Nat.add_sub_cancel, if_neg h0, if_neg hl, if_neg hd]

lemma interp_left {eps : ℝ} (he : 0 ≤ eps) {xp : List ℝ} (h : GoodGrid eps xp) {x : ℝ}
    (fp : List ℝ) (h1 : x ≤ xp.getD 0 0) : interp eps x xp fp = fp.getD 0 0 := by
  have hlen := h.1
  rcases h1.lt_or_eq with h1 | h1
  · have hl : ¬ xp.getD (xp.length - 1) 0 < x := not_lt.2 (le_trans h1.le (h.le he (by omega) (by omega)))
    simp only [interp, if_pos h1, if_neg hl]
  · have := h.2 0 (by omega)
    rw [interp_cell he h fp (k := 0) (by omega) h1.ge (by linarith), h1]; simp

lemma interp_right {eps : ℝ} (he : 0 ≤ eps) {xp : List ℝ} (h : GoodGrid eps xp) {x : ℝ}
    (fp : List ℝ) (h1 : xp.getD (xp.length - 1) 0 ≤ x) : interp eps x xp fp = fp.getD (xp.length - 1) 0 := by
  have hlen := h.1
  rcases h1.lt_or_eq with h1 | h1
  · simp only [interp, if_pos h1]
  · have hg := h.2 (xp.length - 2) (by omega)
    have e : xp.length - 2 + 1 = xp.length - 1 := by omega
    rw [e] at hg
    rw [interp_cell he h fp (k := xp.length - 2) (by omega) (by linarith) (by rw [e]; exact h1.ge), e, ← h1,
      div_self (by linarith)]
    ring

lemma lin_between {u a b t : ℝ} (ha : 0 ≤ t) (hb : t ≤ 1) (hu : u = a + t * (b - a)) :
    min a b ≤ u ∧ u ≤ max a b := by
  subst hu
  constructor
  · rcases le_total a b with h | h
    · rw [min_eq_left h]; nlinarith
    · rw [min_eq_right h]; nlinarith
  · rcases le_total a b with h | h
    · rw [max_eq_right h]; nlinarith
    · rw [max_eq_left h]; nlinarith

lemma interp_cell_between {eps : ℝ} (he : 0 ≤ eps) {xp : List ℝ} (h : GoodGrid eps xp) {k : ℕ} {x : ℝ}
    (fp : List ℝ) (hk : k + 1 < xp.length) (h1 : xp.getD k 0 ≤ x) (h2 : x ≤ xp.getD (k + 1) 0) :
    min (fp.getD k 0) (fp.getD (k + 1) 0) ≤ interp eps x xp fp ∧
      interp eps x xp fp ≤ max (fp.getD k 0) (fp.getD (k + 1) 0) := by
  have hg := h.2 k hk
  refine lin_between (t := (x - xp.getD k 0) / (xp.getD (k + 1) 0 - xp.getD k 0)) ?_ ?_
    (interp_cell he h fp hk h1 h2)
  · exact div_nonneg (by linarith) (by linarith)
  · rw [div_le_one (by linarith)]; linarith

/-- trichotomy of the query position -/
lemma GoodGrid.cover {eps : ℝ} {xp : List ℝ} (h : GoodGrid eps xp) (x : ℝ) :
    x ≤ xp.getD 0 0 ∨ xp.getD (xp.length - 1) 0 ≤ x ∨
      ∃ k, k + 1 < xp.length ∧ xp.getD k 0 ≤ x ∧ x ≤ xp.getD (k + 1) 0 := by
  have hlen := h.1
  by_cases h1 : x ≤ xp.getD 0 0
  · left; exact h1
  by_cases h2 : xp.getD (xp.length - 1) 0 ≤ x
  · right; left; exact h2
  right; right
  obtain ⟨k, hk, ha, hb⟩ := GoodGrid.exists_cell (not_le.1 h1).le (xp.length - 1) (by omega) (not_le.1 h2)
  exact ⟨k, by omega, ha, hb.le⟩

lemma interp_mem_range {eps : ℝ} (he : 0 ≤ eps) {xp : List ℝ} (h : GoodGrid eps xp) (x : ℝ) (fp : List ℝ)
    {lo hi : ℝ} (hfp : ∀ k, k < xp.length → lo ≤ fp.getD k 0 ∧ fp.getD k 0 ≤ hi) :
    lo ≤ interp eps x xp fp ∧ interp eps x xp fp ≤ hi := by
  have hlen := h.1
  rcases h.cover x with h1 | h1 | ⟨k, hk, h1, h2⟩
  · rw [interp_left he h fp h1]; exact hfp 0 (by omega)
  · rw [interp_right he h fp h1]; exact hfp _ (by omega)
  · obtain ⟨ha, hb⟩ := interp_cell_between he h fp hk h1 h2
    exact ⟨le_trans (le_min (hfp k (by omega)).1 (hfp (k + 1) hk).1) ha,
      le_trans hb (max_le (hfp k (by omega)).2 (hfp (k + 1) hk).2)⟩

lemma interp_continuous {eps : ℝ} (he : 0 ≤ eps) {xp : List ℝ} (h : GoodGrid eps xp) (fp : List ℝ) :
    Continuous fun x => interp eps x xp fp := by
  have hlen := h.1
  let F : Option (Option (Fin (xp.length - 1))) → Set ℝ
    | none => Set.Iic (xp.getD 0 0)
    | some none => Set.Ici (xp.getD (xp.length - 1) 0)
    | some (some k) => Set.Icc (xp.getD k 0) (xp.getD (k + 1) 0)
  refine (locallyFinite_of_finite F).continuous ?_ ?_ ?_
  · ext x
    simp only [Set.mem_iUnion, Set.mem_univ, iff_true]
    rcases h.cover x with h1 | h1 | ⟨k, hk, h1, h2⟩
    · exact ⟨none, h1⟩
    · exact ⟨some none, h1⟩
    · exact ⟨some (some ⟨k, by omega⟩), h1, h2⟩
  · rintro (_ | _ | k)
    · exact isClosed_Iic
    · exact isClosed_Ici
    · exact isClosed_Icc
  · rintro (_ | _ | k)
    · exact (continuousOn_const (c := fp.getD 0 0)).congr fun x hx => interp_left he h fp hx
    · exact (continuousOn_const (c := fp.getD (xp.length - 1) 0)).congr fun x hx => interp_right he h fp hx
    · have hk := k.2
      refine ContinuousOn.congr (f := fun x => fp.getD k 0 +
        (x - xp.getD k 0) / (xp.getD (k + 1) 0 - xp.getD k 0) * (fp.getD (k + 1) 0 - fp.getD k 0)) ?_
        fun x hx => interp_cell he h fp (by omega) hx.1 hx.2
      fun_prop

end Ripple

/-
  Property C20: `get_eff_pads` (src/ripplegw/__init__.py:342-371).
-/
import Verif.Proofs.Pads

namespace Ripple
open Jnp

/-- On every uniform grid `fs[j] = (a+j)·df` with at least two points and last index `K = a+n-1 ≥ 2`
    no warning is issued and the pads are zero arrays of lengths `fs[0]/df = a` and `fs[-1]/df - 2 = K-2`. -/
theorem C20_pads (a n : ℕ) (df : ℝ) (hdf : 0 < df) (hn : 2 ≤ n) (hK : 2 ≤ a + n - 1)
    (fs : List ℝ) (hfs : fs = (List.range n).map fun j => ((a + j : ℕ) : ℝ) * df) :
    get_eff_pads fs = .ok ([], List.replicate a 0, List.replicate (a + n - 1 - 2) 0) := by
  change fs = grid a n df at hfs
  subst hfs
  have hd : ∀ k : ℕ, (k : ℝ) * df / df = k := fun k => mul_div_cancel_right₀ _ hdf.ne'
  have hK1 : ((a + n - 1 : ℕ) : ℝ) - 1 = ((a + n - 1 - 1 : ℕ) : ℝ) := by
    rw [Nat.cast_sub (n := a + n - 1) (by omega)]; simp
  have hz : 2 * ((a + n - 1 - 1 : ℕ) : ℤ) - ((a + n - 1 : ℕ) : ℤ) = ((a + n - 1 - 2 : ℕ) : ℤ) := by omega
  have hc : ∀ d ∈ diff (grid a n df),
      isclose d ((index (grid a n df) (-1) - index (grid a n df) 0) / (((grid a n df).length : ℝ) - 1)) := by
    intro d h
    rw [grid_index_zero a n df (by omega), grid_index_last a n df (by omega), grid_length, grid_df a n hn,
      diff_grid a n df d h, isclose]
    simp; positivity
  simp only [get_eff_pads, grid_index_zero a n df (by omega), grid_index_last a n df (by omega), grid_length,
    grid_df a n hn, hd, fmod_mul _ hdf.ne', hK1, trunc_natCast, hz, zeros]
  rw [if_pos hc]
  simp only [ne_eq, not_true_eq_false, or_self, if_false, Int.toNat_natCast,
    not_lt.2 (Int.natCast_nonneg _)]
  rfl

/-- hence the padded integrand (low pad, n grid points, high pad) has length `2K - 1` -/
theorem C20_padded_length (a n : ℕ) (df : ℝ) (hdf : 0 < df) (hn : 2 ≤ n) (hK : 2 ≤ a + n - 1) :
    ∃ lo hi, get_eff_pads ((List.range n).map fun j => ((a + j : ℕ) : ℝ) * df) = .ok ([], lo, hi) ∧
      (lo.length + n + hi.length = 2 * (a + n - 1) - 1) ∧ (∀ x ∈ lo, x = 0) ∧ (∀ x ∈ hi, x = 0) := by
  refine ⟨_, _, C20_pads a n df hdf hn hK _ rfl, ?_, ?_, ?_⟩
  · simp only [List.length_replicate]; omega
  · intro x hx; exact List.eq_of_mem_replicate hx
  · intro x hx; exact List.eq_of_mem_replicate hx

/-- The only uniform two-or-more point grid on which it fails is `[0, df]` (K = 1): negative pad length. -/
theorem C20_fails_on_shortest_grid (df : ℝ) (hdf : 0 < df) :
    get_eff_pads [0, df] = .error .typeError := by
  have e : [0, df] = grid 0 2 df := by simp [grid, List.range_succ]
  have hd : ∀ k : ℕ, (k : ℝ) * df / df = k := fun k => mul_div_cancel_right₀ _ hdf.ne'
  rw [e]
  simp only [get_eff_pads, grid_index_zero 0 2 df (by omega), grid_index_last 0 2 df (by omega), grid_length,
    grid_df 0 2 le_rfl, hd, zeros]
  have h1 : trunc (((0 + 2 - 1 : ℕ) : ℝ) - 1) = 0 := by
    have := trunc_natCast 0; norm_num at this ⊢; exact this
  have h2 : trunc ((0 + 2 - 1 : ℕ) : ℝ) = 1 := by
    have := trunc_natCast 1; norm_num at this ⊢; exact this
  have h3 : trunc (((0 : ℕ) : ℝ)) = 0 := trunc_natCast 0
  rw [h1, h2, h3]
  rfl

/-- On any grid of at least two points with positive mean spacing `df`, a successful call reports
    "not evenly spaced" exactly when some gap differs from `df` by more than `1e-8 + 1e-5 df`, and reports
    "not integer multiples" exactly when the first frequency is no integer multiple of `df` (the last one is
    `fs[0] + (n-1) df`, so it is a multiple exactly when the first one is). -/
theorem C89_warnings (fs : List ℝ) (hn : 2 ≤ fs.length) (df : ℝ)
    (hdf : df = (fs[fs.length - 1] - fs[0]) / (fs.length - 1)) (hpos : 0 < df)
    (w : List PadWarning) (lo hi : List ℝ) (h : get_eff_pads fs = .ok (w, lo, hi)) :
    (PadWarning.notEvenlySpaced ∈ w ↔
      ∃ (j : ℕ) (hj : j + 1 < fs.length), 1e-8 + 1e-5 * df < |(fs[j + 1] - fs[j]) - df|) ∧
    (PadWarning.notMultiples ∈ w ↔ ¬ ∃ k : ℤ, fs[0] = k * df) ∧
    (PadWarning.notMultiples ∈ w ↔ ¬ ∃ k : ℤ, fs[fs.length - 1] = k * df) := by
  classical
  have hL : fs[fs.length - 1] = fs[0] + ((fs.length - 1 : ℕ) : ℤ) * df := by
    have h2 : (fs.length : ℝ) - 1 ≠ 0 := by
      have : (2 : ℝ) ≤ fs.length := by exact_mod_cast hn
      linarith
    rw [hdf, Int.cast_natCast, Nat.cast_sub (by omega)]
    field_simp
    push_cast
    ring
  have hiff : (∃ k : ℤ, fs[0] = k * df) ↔ ∃ k : ℤ, fs[fs.length - 1] = k * df := by
    constructor
    · rintro ⟨k, hk⟩
      exact ⟨k + ((fs.length - 1 : ℕ) : ℤ), by rw [hL, hk]; push_cast; ring⟩
    · rintro ⟨k, hk⟩
      exact ⟨k - ((fs.length - 1 : ℕ) : ℤ), by rw [hL] at hk; push_cast at hk ⊢; linarith⟩
  have hw : w = (if ∀ d ∈ diff fs, isclose d df then [] else [PadWarning.notEvenlySpaced]) ++
      (if fmod fs[0] df ≠ 0 ∨ fmod fs[fs.length - 1] df ≠ 0 then [PadWarning.notMultiples] else []) := by
    simp only [get_eff_pads, index_first fs hn, index_last fs hn, ← hdf] at h
    cases hz1 : zeros (trunc (fs[0] / df)) with
    | error e => rw [hz1] at h; cases h
    | ok l1 =>
      rw [hz1] at h
      cases hz2 : zeros (2 * trunc (fs[fs.length - 1] / df - 1) - trunc (fs[fs.length - 1] / df)) with
      | error e => simp only [hz2] at h; cases h
      | ok l2 =>
        simp only [hz2] at h
        cases h
        rfl
  have h1 : PadWarning.notEvenlySpaced ∈ w ↔ ¬ ∀ d ∈ diff fs, isclose d df := by
    rw [hw]; split_ifs with g1 g2 <;> simp <;> first | exact g1 | (push Not at g1; exact g1)
  have h2 : PadWarning.notMultiples ∈ w ↔ (fmod fs[0] df ≠ 0 ∨ fmod fs[fs.length - 1] df ≠ 0) := by
    rw [hw]; split_ifs with g1 g2 g2 <;> simp only [List.nil_append, List.append_nil, List.mem_cons,
      List.mem_append, List.not_mem_nil, or_false, false_iff, true_iff, reduceCtorEq, or_true] <;> exact g2
  have h3 : PadWarning.notMultiples ∈ w ↔ ¬ ∃ k : ℤ, fs[0] = k * df := by
    rw [h2, Ne, Ne, fmod_eq_zero_iff hpos.ne', fmod_eq_zero_iff hpos.ne', hiff, or_self]
  refine ⟨?_, h3, by rw [h3, hiff]⟩
  rw [h1]
  push Not
  constructor
  · rintro ⟨d, hd, hc⟩
    obtain ⟨j, hj, rfl⟩ := (mem_diff_iff fs d).1 hd
    exact ⟨j, hj, by unfold isclose at hc; rw [abs_of_pos hpos] at hc; exact not_le.1 hc⟩
  · rintro ⟨j, hj, hc⟩
    exact ⟨_, (mem_diff_iff fs _).2 ⟨j, hj, rfl⟩, by unfold isclose; rw [abs_of_pos hpos]; exact not_le.2 hc⟩

/-- both warnings do occur: the uneven grid `1, 2, 5` with mean spacing 2 -/
example : get_eff_pads [1, 2, 5] = .ok ([.notEvenlySpaced, .notMultiples], [], []) := by
  have hd : ((5 : ℝ) - 1) / (3 - 1) = 2 := by norm_num
  have t1 : trunc ((1 : ℝ) / 2) = 0 := by
    rw [trunc, if_pos (by norm_num)]; norm_num
  have t2 : trunc ((5 : ℝ) / 2 - 1) = 1 := by
    rw [trunc, if_pos (by norm_num)]; norm_num
  have t3 : trunc ((5 : ℝ) / 2) = 2 := by
    rw [trunc, if_pos (by norm_num)]; norm_num
  have hf : fmod (1 : ℝ) 2 ≠ 0 := by
    rw [fmod]; norm_num
  have hc : ¬ ∀ d ∈ diff ([1, 2, 5] : List ℝ), isclose d 2 := by
    intro h
    have := h 1 (by norm_num [diff])
    unfold isclose at this
    norm_num at this
  have i0 : index ([1, 2, 5] : List ℝ) 0 = 1 := index_first [1, 2, 5] (by simp)
  have iL : index ([1, 2, 5] : List ℝ) (-1) = 5 := index_last [1, 2, 5] (by simp)
  have hl : ((([1, 2, 5] : List ℝ).length : ℕ) : ℝ) = 3 := by simp
  simp only [get_eff_pads, i0, iL, hl, hd, t1, t2, t3, hf, hc, zeros, if_false, ne_eq, not_false_eq_true, true_or,
    if_true]
  rfl

example : (0 : ℝ) < 0.25 ∧ 2 ≤ 5 ∧ 2 ≤ 80 + 5 - 1 := by norm_num

end Ripple

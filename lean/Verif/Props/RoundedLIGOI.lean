/-
  C114: the analytic LIGO-I noise curve in floating-point arithmetic.
-/
import Verif.Proofs.RoundedLIGOI
import Verif.Props.RoundedMatch

namespace Ripple
open Fp

noncomputable section

/-- C114: at and below 40 Hz the curve is infinite in every format. -/
theorem C114_below {F : Fp.Fmt} (lib : LIGOIPow F) (f : ℝ) (h : f ≤ 40) : Fp.Sn_LIGOI F lib f = .pinf := by
  unfold Fp.Sn_LIGOI; simp only; rw [if_neg (not_lt.2 h)]

/-- C114: in single precision with subnormal results flushed to zero the curve is zero between 40 Hz and 10 kHz, where the exact
    curve is positive. -/
theorem C114_flushed (lib : LIGOIPow (binary32 true)) (heps : lib.eps ≤ 1 / 10000) (f : ℝ) (h40 : 40 < f) (hf : f ≤ 10000) :
    Fp.Sn_LIGOI (binary32 true) lib f = .fin 0 ∧ ∃ exact : ℝ, Ripple.Sn_LIGOI f = .fin exact ∧ 4e-46 ≤ exact := by
  refine ⟨ligoi_flushed lib heps h40 hf, _, ligoi_exact h40, ?_⟩
  have := bracket_low (X := f / 150) (by linarith)
  norm_num at this ⊢; linarith

/-- C114: with one frequency above 40 Hz in the grid the overlap and the match under this noise are then nan, for all waveforms. -/
theorem C114_nan (lib : Lib (binary32 true)) (pows : LIGOIPow (binary32 true)) (heps : pows.eps ≤ 1 / 10000) {n : ℕ} (fs : Fin n → ℝ)
    (h1 h2 : Fin n → XR × XR) (i : Fin n) (h40 : 40 < fs i) (hf : fs i ≤ 10000) (del_t : ℝ) (a b : ℕ) :
    Fp.get_phase_maximized_inner_product_arr (binary32 true) lib del_t fs (fun j => Fp.Sn_LIGOI (binary32 true) pows (fs j)) h1 h2
        = .nan
      ∧ Fp.get_match_arr (binary32 true) lib a b (fun j => Fp.Sn_LIGOI (binary32 true) pows (fs j)) h1 h2 = .nan :=
  C111_zero_noise lib _ h1 h2 i (ligoi_flushed pows heps h40 hf) del_t fs a b

/-- C114: in single precision with subnormal numbers the curve is a positive multiple of the smallest number, `2 ^ (-149)`, and
    between 2 and 110 per cent too large at every frequency between 40 Hz and 10 kHz. -/
theorem C114_subnormal (lib : LIGOIPow (binary32 false)) (heps : lib.eps ≤ 1 / 10000) (f : ℝ) (h40 : 40 < f) (hf : f ≤ 10000) :
    ∃ (exact : ℝ) (k : ℕ), Ripple.Sn_LIGOI f = .fin exact ∧ Fp.Sn_LIGOI (binary32 false) lib f = .fin (k * 2 ^ (-149 : ℤ)) ∧ 1 ≤ k
      ∧ 0 < exact ∧ 1.02 * exact ≤ k * 2 ^ (-149 : ℤ) ∧ k * 2 ^ (-149 : ℤ) ≤ 2.1 * exact := by
  obtain ⟨k, e, hk, hl, hh⟩ := ligoi_subnormal lib heps h40 hf
  have hb := bracket_low (X := f / 150) (by linarith)
  lift k to ℕ using by omega
  refine ⟨_, k, ligoi_exact h40, by exact_mod_cast e, by exact_mod_cast hk, ?_⟩
  generalize bracket (f / 150) = p at *
  push_cast at hl hh
  norm_num at hb hl hh ⊢
  refine ⟨by linarith, ?_, ?_⟩ <;> linarith

/-- C114: in double precision the curve is positive and accurate to four times the error of the powers plus 3e-13. -/
theorem C114_double (b : Bool) (lib : LIGOIPow (binary64 b)) (heps : lib.eps ≤ 1 / 1000) (f : ℝ) (h40 : 40 < f) (hf : f ≤ 10000) :
    ∃ exact rounded : ℝ, Ripple.Sn_LIGOI f = .fin exact ∧ Fp.Sn_LIGOI (binary64 b) lib f = .fin rounded
      ∧ (binary64 b).IsFloat rounded ∧ 0 < exact ∧ 0 < rounded ∧ |rounded - exact| ≤ (4 * lib.eps + 3e-13) * exact := by
  obtain ⟨r, e, hr, h⟩ := ligoi_double b lib heps h40 hf
  have hb := bracket_low (X := f / 150) (by linarith)
  have hp : (0 : ℝ) < 1e-46 * 9 * bracket (f / 150) := by norm_num at hb ⊢; linarith
  refine ⟨_, r, ligoi_exact h40, e, hr, hp, ?_, h⟩
  have h1 := (abs_le.1 h).1
  have h2 := mul_le_mul_of_nonneg_right heps hp.le
  generalize 1e-46 * 9 * bracket (f / 150) = w at *
  norm_num at h1; linarith

/-- Correctly rounded powers meet the hypotheses, at 100 Hz: zero, a subnormal number, and an accurate value. -/
example : Fp.Sn_LIGOI (binary32 true) (roundedPow (usual32 true)) 100 = .fin 0 :=
  (C114_flushed _ (by show (binary32 true).u ≤ _; rw [u32]; norm_num) 100 (by norm_num) (by norm_num)).1

example : ∃ k : ℕ, Fp.Sn_LIGOI (binary32 false) (roundedPow (usual32 false)) 100 = .fin (k * 2 ^ (-149 : ℤ)) ∧ 1 ≤ k := by
  obtain ⟨_, k, -, e, hk, -⟩ := C114_subnormal (roundedPow (usual32 false)) (by show (binary32 false).u ≤ _; rw [u32]; norm_num)
    100 (by norm_num) (by norm_num)
  exact ⟨k, e, hk⟩

example : ∃ exact rounded : ℝ, Ripple.Sn_LIGOI 100 = .fin exact ∧ Fp.Sn_LIGOI (binary64 true) (roundedPow (usual64 true)) 100 = .fin rounded
    ∧ |rounded - exact| ≤ 4e-13 * exact := by
  obtain ⟨e, r, h1, h2, -, h3, -, h4⟩ := C114_double true (roundedPow (usual64 true)) (by show (binary64 true).u ≤ _; rw [u64]; norm_num)
    100 (by norm_num) (by norm_num)
  refine ⟨e, r, h1, h2, h4.trans (mul_le_mul_of_nonneg_right ?_ h3.le)⟩
  show 4 * (binary64 true).u + _ ≤ _
  rw [u64]; norm_num

end
end Ripple

/-
  Evaluation of single-precision operations on literals.
-/
import Verif.Proofs.RoundedEta
import Verif.Model.Constants
import Mathlib.Tactic.NormNum

namespace Ripple
namespace Fp

noncomputable section

lemma eval32_aux {b : Bool} {x : ℝ} (e n : ℤ) (he : -126 ≤ e) (h1 : 2 ^ e ≤ x) (h2 : x < 2 ^ (e + 1))
    (h3 : rne (x / 2 ^ (e - 23)) = n) : (binary32 b).rd x = n * 2 ^ (e - 23) := by
  have hx : 0 < x := (two_zpow_pos e).trans_le h1
  have hn : (binary32 b).minNormal ≤ x := by
    refine le_trans ?_ h1
    unfold Fmt.minNormal; exact zpow_le (by simp [binary32]; omega)
  have hlog : Int.log 2 |x| = e := log_eq (by rwa [abs_of_pos hx]) (by rwa [abs_of_pos hx])
  rw [rd_normal (wf32 b).p1 hn]
  unfold Fmt.rnd
  rw [lsb_normal (by rwa [abs_of_pos hx]), hlog, show e - (((binary32 b).p : ℤ) - 1) = e - 23 by simp [binary32], h3]

lemma eval32 {b : Bool} {x : ℝ} (e n : ℤ) (he : -126 ≤ e) (h1 : 2 ^ e ≤ x) (h2 : x < 2 ^ (e + 1))
    (h3 : |x / 2 ^ (e - 23) - n| < 1 / 2) : (binary32 b).rd x = n * 2 ^ (e - 23) :=
  eval32_aux e n he h1 h2 (rne_eq h3)

lemma eval32_tie {b : Bool} {x : ℝ} (e n : ℤ) (he : -126 ≤ e) (h1 : 2 ^ e ≤ x) (h2 : x < 2 ^ (e + 1)) (hn : Even n)
    (h3 : x / 2 ^ (e - 23) = n + 1 / 2) : (binary32 b).rd x = n * 2 ^ (e - 23) :=
  eval32_aux e n he h1 h2 (by rw [h3]; exact rne_half n hn)

/-- the solar mass in seconds, in single precision -/
lemma gt32 (b : Bool) : (binary32 b).rd gt = 10831269 * 2 ^ (-41 : ℤ) := by
  have := eval32 (b := b) (x := gt) (-18) 10831269 (by norm_num)
    (by unfold gt G MSUN C; norm_num) (by unfold gt G MSUN C; norm_num)
    (by unfold gt G MSUN C; rw [abs_lt]; constructor <;> norm_num)
  norm_num at this ⊢; exact this

lemma eta_31 (b : Bool) :
    etaOf (binary32 b) ((binary32 b).mul (.fin (31 + 1 / 64)) (.fin ((binary32 b).rd gt)))
      ((binary32 b).mul (.fin 31) (.fin ((binary32 b).rd gt))) = .fin (8388609 / 33554432) := by
  have hbig : (2 : ℝ) ^ (binary32 b).emax = 2 ^ (128 : ℤ) := rfl
  rw [gt32]
  have e1 : (binary32 b).rd ((31 + 1 / 64) * (10831269 * 2 ^ (-41 : ℤ))) = 10498081 * 2 ^ (-36 : ℤ) := by
    have := eval32 (b := b) (x := (31 + 1 / 64) * (10831269 * 2 ^ (-41 : ℤ))) (-13) 10498081 (by norm_num) (by norm_num)
      (by norm_num) (by rw [abs_lt]; constructor <;> norm_num)
    norm_num at this ⊢; exact this
  have e2 : (binary32 b).rd (31 * (10831269 * 2 ^ (-41 : ℤ))) = 10492792 * 2 ^ (-36 : ℤ) := by
    have := eval32 (b := b) (x := 31 * (10831269 * 2 ^ (-41 : ℤ))) (-13) 10492792 (by norm_num) (by norm_num)
      (by norm_num) (by rw [abs_lt]; constructor <;> norm_num)
    norm_num at this ⊢; exact this
  have e3 : (binary32 b).rd ((10498081 * 2 ^ (-36 : ℤ)) * (10492792 * 2 ^ (-36 : ℤ))) = 13131402 * 2 ^ (-49 : ℤ) := by
    have := eval32 (b := b) (x := (10498081 * 2 ^ (-36 : ℤ)) * (10492792 * 2 ^ (-36 : ℤ))) (-26) 13131402 (by norm_num)
      (by norm_num) (by norm_num) (by rw [abs_lt]; constructor <;> norm_num)
    norm_num at this ⊢; exact this
  have e4 : (binary32 b).rd ((10498081 * 2 ^ (-36 : ℤ)) + (10492792 * 2 ^ (-36 : ℤ))) = 10495436 * 2 ^ (-35 : ℤ) := by
    have := eval32_tie (b := b) (x := (10498081 * 2 ^ (-36 : ℤ)) + (10492792 * 2 ^ (-36 : ℤ))) (-12) 10495436 (by norm_num)
      (by norm_num) (by norm_num) (by decide) (by norm_num)
    norm_num at this ⊢; exact this
  have e5 : (binary32 b).rd ((10495436 * 2 ^ (-35 : ℤ)) * (10495436 * 2 ^ (-35 : ℤ))) = 13131401 * 2 ^ (-47 : ℤ) := by
    have := eval32 (b := b) (x := (10495436 * 2 ^ (-35 : ℤ)) * (10495436 * 2 ^ (-35 : ℤ))) (-24) 13131401 (by norm_num)
      (by norm_num) (by norm_num) (by rw [abs_lt]; constructor <;> norm_num)
    norm_num at this ⊢; exact this
  have e6 : (binary32 b).rd ((13131402 * 2 ^ (-49 : ℤ)) / (13131401 * 2 ^ (-47 : ℤ))) = 8388609 / 33554432 := by
    have := eval32 (b := b) (x := (13131402 * 2 ^ (-49 : ℤ)) / (13131401 * 2 ^ (-47 : ℤ))) (-2) 8388609 (by norm_num)
      (by norm_num) (by norm_num) (by rw [abs_lt]; constructor <;> norm_num)
    norm_num at this ⊢; exact this
  unfold etaOf
  rw [mul_fin (by positivity) (by rw [e1, hbig]; norm_num), e1, mul_fin (by positivity) (by rw [e2, hbig]; norm_num), e2,
    mul_fin (by positivity) (by rw [e3, hbig]; norm_num), e3, add_fin (by positivity) (by rw [e4, hbig]; norm_num), e4,
    mul_fin (by positivity) (by rw [e5, hbig]; norm_num), e5,
    div_fin (by positivity) (by positivity) (by rw [e6, hbig]; norm_num), e6]

end
end Fp
end Ripple

/-
  Helper lemmas: the frequency at which IMRPhenomXAS aligns its peak, the ringdown frequency less the damping frequency, lies
  above the second transition of the phase.
-/
import Verif.Proofs.XASSlope

namespace Ripple
namespace XAS
open Real Set
lemma pk_x (t n m n' m' r w x : ℝ) (ht : 0.0025 ≤ t ∧ t ≤ 2) (hn : n = 100000 * rN t) (hm : m = 10000 * rD t)
    (hn' : n' = 100000 * dN t) (hm' : m' = 10000 * dD t) (hr : r = n / m) (hw : w = n' / m')
    (hx : x = 0.6955 * r - w - 6.09 / 3.1415 * (0.00416 / (t + 0.022) + 0.087 / (t + 0.35))) :
    0 < x := by
  unfold rN at hn
  unfold rD at hm
  unfold dN at hn'
  unfold dD at hm'
  affine_bnb [ht] [hn, hm, hn', hm', hr, hw, hx]

lemma pk_x' (t n m n' m' r w x u : ℝ) (ht : 0 ≤ t ∧ t ≤ 0.0003) (hn : n = 100000000 * rN t) (hm : m = 10000000 * rD t)
    (hn' : n' = 100000000 * dN t) (hm' : m' = 10000000 * dD t) (hr : r = n / m) (hw : w = n' / m')
    (hu : u = (1 + 3 * t) / (1 + 0.7 * t))
    (hx : x = 0.6955 * r - w - 6.09 / 3.14 * (1 / (u ^ 3 + (1 - t)))) :
    0 < x := by
  unfold rN at hn
  unfold rD at hm
  unfold dN at hn'
  unfold dD at hm'
  affine_bnb [ht] [hn, hm, hn', hm', hr, hw, hu, hx]

lemma pk_x'' (t n m n' m' r w x : ℝ) (ht : 0.0003 ≤ t ∧ t ≤ 0.0025) (hn : n = 10000000 * rN t) (hm : m = 1000000 * rD t)
    (hn' : n' = 10000000 * dN t) (hm' : m' = 1000000 * dD t) (hr : r = n / m) (hw : w = n' / m')
    (hx : x = 0.6955 * r - w - 6.09 / 3.14 * (1 / (1.05 ^ 3 + (1 - t)))) :
    0 < x := by
  unfold rN at hn
  unfold rD at hm
  unfold dN at hn'
  unfold dD at hm'
  affine_bnb [ht] [hn, hm, hn', hm', hr, hw, hx]

/-- the alignment frequency in units of the mass of the remnant lies above the second transition -/
lemma peak_rem {a : ℝ} (h1 : -1 ≤ a) (h2 : a ≤ 1) :
    0.609 * fISCOof a < 0.6955 * (rN (1 - a) / rD (1 - a)) - dN (1 - a) / dD (1 - a) := by
  have ht : 0 ≤ 1 - a ∧ 1 - a ≤ 2 := by constructor <;> linarith
  have fin : ∀ n m n' m' z : ℝ, n / m = 10 * (rN (1 - a) / rD (1 - a)) → n' / m' = 10 * (dN (1 - a) / dD (1 - a)) →
      6.09 * fISCOof a ≤ z → 0 < 0.6955 * (n / m) - n' / m' - z →
      0.609 * fISCOof a < 0.6955 * (rN (1 - a) / rD (1 - a)) - dN (1 - a) / dD (1 - a) := by
    intro n m n' m' z e1 e2 hz p
    rw [e1, e2] at p
    linarith
  have sc : ∀ k x y : ℝ, k ≠ 0 → 10 * k * x / (k * y) = 10 * (x / y) := by
    intro k x y hk
    rw [mul_comm 10 k, mul_assoc, mul_div_mul_left _ _ hk, mul_div_assoc]
  rcases le_total (1 - a) 0.0003 with hA | hA
  · refine fin (100000000 * rN (1 - a)) (10000000 * rD (1 - a)) (100000000 * dN (1 - a)) (10000000 * dD (1 - a)) _ ?_ ?_ ?_
      (pk_x' (1 - a) _ _ _ _ _ _ _ _ ⟨ht.1, hA⟩ rfl rfl rfl rfl rfl rfl rfl rfl)
    · rw [← sc 10000000 _ _ (by norm_num)]; norm_num
    · rw [← sc 10000000 _ _ (by norm_num)]; norm_num
    · have := isco_hi h1 h2
      rw [sub_sub_cancel]
      calc _ ≤ 6.09 * _ := mul_le_mul_of_nonneg_left this (by norm_num)
        _ = _ := by ring
  rcases le_total (1 - a) 0.0025 with hB | hB
  · refine fin (10000000 * rN (1 - a)) (1000000 * rD (1 - a)) (10000000 * dN (1 - a)) (1000000 * dD (1 - a)) _ ?_ ?_ ?_
      (pk_x'' (1 - a) _ _ _ _ _ _ _ ⟨hA, hB⟩ rfl rfl rfl rfl rfl rfl rfl)
    · rw [← sc 1000000 _ _ (by norm_num)]; norm_num
    · rw [← sc 1000000 _ _ (by norm_num)]; norm_num
    · have := isco_hi_of h1 h2 (x := 1.05) (by norm_num) (by norm_num; linarith) (by
        have := dt_q (1 - a) a ⟨hA, hB⟩ (by ring)
        linarith)
      rw [sub_sub_cancel]
      calc _ ≤ 6.09 * _ := mul_le_mul_of_nonneg_left this (by norm_num)
        _ = _ := by ring
  · refine fin (100000 * rN (1 - a)) (10000 * rD (1 - a)) (100000 * dN (1 - a)) (10000 * dD (1 - a)) _ ?_ ?_ ?_
      (pk_x (1 - a) _ _ _ _ _ _ _ ⟨hB, ht.2⟩ rfl rfl rfl rfl rfl rfl rfl)
    · rw [← sc 10000 _ _ (by norm_num)]; norm_num
    · rw [← sc 10000 _ _ (by norm_num)]; norm_num
    · have := (isco_tight h1 (by norm_num at hB ⊢; linarith)).2
      have i0 := (isco_pos h1 h2).1
      have : 3.1415 * fISCOof a ≤ _ := le_trans (mul_le_mul_of_nonneg_right (by linarith [Real.pi_gt_d4]) i0.le) this
      rw [div_mul_eq_mul_div, le_div_iff₀ (by norm_num)]
      linarith

/-- the alignment frequency lies in the ringdown region of the phase, below the cutoff -/
lemma peak_range {theta : Theta} (h : theta.Physical) :
    fPhase2 theta < (cut theta).fRD - (cut theta).fdamp ∧ (cut theta).fRD - (cut theta).fdamp < 0.3 := by
  have a1 := spin_gt h
  have a2 := spin_lt h
  have hp := peak_rem a1.le a2.le
  have hE := erad_range h
  have hi := (isco_pos a1.le a2.le).1
  have hm := meco_lo h
  have hw := (fdamp_range h).1
  have hE1 : 0 < 1 - eradOf theta := by linarith
  have up := (rd_mid h).2
  have hc : cut theta = ⟨fRDof (spinOf theta) (eradOf theta), fdampOf (spinOf theta) (eradOf theta),
      fMECOof (etaOf theta) (dOf theta) (chipnOf theta) (theta.chi1 - theta.chi2), fISCOof (spinOf theta)⟩ := cutoffs_eq theta
  have er : rN (1 - spinOf theta) / rD (1 - spinOf theta) = fRDof (spinOf theta) (eradOf theta) * (1 - eradOf theta) := by
    rw [fRDof_eq, div_mul_cancel₀ _ hE1.ne']
  have ew : dN (1 - spinOf theta) / dD (1 - spinOf theta) = fdampOf (spinOf theta) (eradOf theta) * (1 - eradOf theta) := by
    rw [fdampOf_eq, div_mul_cancel₀ _ hE1.ne']
  rw [er, ew] at hp
  unfold fPhase2 fIM
  rw [hc] at up ⊢
  simp only [] at up ⊢
  generalize fRDof (spinOf theta) (eradOf theta) = r at *
  generalize fdampOf (spinOf theta) (eradOf theta) = w at *
  generalize fMECOof (etaOf theta) (dOf theta) (chipnOf theta) (theta.chi1 - theta.chi2) = X at *
  generalize fISCOof (spinOf theta) = I at *
  generalize eradOf theta = e at *
  have k : 0.609 * I < 0.6955 * r - w := by
    have : 0.609 * I * (1 - e) < (0.6955 * r - w) * (1 - e) := by nlinarith [mul_pos hi hE.1]
    exact lt_of_mul_lt_mul_right this hE1.le
  norm_num at k hm hw up ⊢
  constructor <;> linarith

end XAS
end Ripple

/-
  Helper lemmas: the collocation matrix of the ringdown phase fit is invertible for every physical binary.
-/
import Verif.Proofs.XASSpin
import Verif.Proofs.XASDet

namespace Ripple
namespace XAS
open Real Set

lemma dt_isco (t n m n' m' r w x : ℝ) (ht : 0.0025 ≤ t ∧ t ≤ 2) (hn : n = 100000 * rN t) (hm : m = 10000 * rD t)
    (hn' : n' = 100000 * dN t) (hm' : m' = 10000 * dD t) (hr : r = n / m) (hw : w = n' / m')
    (hx : x = 0.7 * r + 1.25 * w - 6 / 3.1415 * (0.00416 / (t + 0.022) + 0.087 / (t + 0.35))) :
    0 < (0.21 * (r + 1.25 * w) + 0.31 * x) * x - 1.25 * w * (r + 1.25 * w) := by
  unfold rN at hn
  unfold rD at hm
  unfold dN at hn'
  unfold dD at hm'
  affine_bnb [ht] [hn, hm, hn', hm', hr, hw, hx]

lemma dt_isco' (t n m n' m' r w x u : ℝ) (ht : 0 ≤ t ∧ t ≤ 0.0003) (hn : n = 100000000 * rN t) (hm : m = 10000000 * rD t)
    (hn' : n' = 100000000 * dN t) (hm' : m' = 10000000 * dD t) (hr : r = n / m) (hw : w = n' / m')
    (hu : u = (1 + 3 * t) / (1 + 0.7 * t))
    (hx : x = 0.7 * r + 1.25 * w - 6 / 3.14 * (1 / (u ^ 3 + (1 - t)))) :
    0 < (0.21 * (r + 1.25 * w) + 0.31 * x) * x - 1.25 * w * (r + 1.25 * w) := by
  unfold rN at hn
  unfold rD at hm
  unfold dN at hn'
  unfold dD at hm'
  affine_bnb [ht] [hn, hm, hn', hm', hr, hw, hu, hx]

lemma dt_isco'' (t n m n' m' r w x : ℝ) (ht : 0.0003 ≤ t ∧ t ≤ 0.0025) (hn : n = 10000000 * rN t) (hm : m = 1000000 * rD t)
    (hn' : n' = 10000000 * dN t) (hm' : m' = 1000000 * dD t) (hr : r = n / m) (hw : w = n' / m')
    (hx : x = 0.7 * r + 1.25 * w - 6 / 3.14 * (1 / (1.05 ^ 3 + (1 - t)))) :
    0 < (0.21 * (r + 1.25 * w) + 0.31 * x) * x - 1.25 * w * (r + 1.25 * w) := by
  unfold rN at hn
  unfold rD at hm
  unfold dN at hn'
  unfold dD at hm'
  affine_bnb [ht] [hn, hm, hn', hm', hr, hw, hx]

lemma dt_q (t a : ℝ) (ht : 0.0003 ≤ t ∧ t ≤ 0.0025) (ha : a = 1 - t) :
    0 < -(1.05 ^ 4 - 6 * 1.05 ^ 2 + 8 * a * 1.05 - 3 * a ^ 2) := by
  affine_bnb [ht] [ha]

lemma dt_x (t n m n' m' r w x : ℝ) (ht : 0.0025 ≤ t ∧ t ≤ 2) (hn : n = 100000 * rN t) (hm : m = 10000 * rD t)
    (hn' : n' = 100000 * dN t) (hm' : m' = 10000 * dD t) (hr : r = n / m) (hw : w = n' / m')
    (hx : x = 0.7 * r + 1.25 * w - 6 / 3.1415 * (0.00416 / (t + 0.022) + 0.087 / (t + 0.35))) :
    0 < x := by
  unfold rN at hn
  unfold rD at hm
  unfold dN at hn'
  unfold dD at hm'
  affine_bnb [ht] [hn, hm, hn', hm', hr, hw, hx]

lemma dt_x' (t n m n' m' r w x u : ℝ) (ht : 0 ≤ t ∧ t ≤ 0.0003) (hn : n = 100000000 * rN t) (hm : m = 10000000 * rD t)
    (hn' : n' = 100000000 * dN t) (hm' : m' = 10000000 * dD t) (hr : r = n / m) (hw : w = n' / m')
    (hu : u = (1 + 3 * t) / (1 + 0.7 * t))
    (hx : x = 0.7 * r + 1.25 * w - 6 / 3.14 * (1 / (u ^ 3 + (1 - t)))) :
    0 < x := by
  unfold rN at hn
  unfold rD at hm
  unfold dN at hn'
  unfold dD at hm'
  affine_bnb [ht] [hn, hm, hn', hm', hr, hw, hu, hx]

lemma dt_x'' (t n m n' m' r w x : ℝ) (ht : 0.0003 ≤ t ∧ t ≤ 0.0025) (hn : n = 10000000 * rN t) (hm : m = 1000000 * rD t)
    (hn' : n' = 10000000 * dN t) (hm' : m' = 1000000 * dD t) (hr : r = n / m) (hw : w = n' / m')
    (hx : x = 0.7 * r + 1.25 * w - 6 / 3.14 * (1 / (1.05 ^ 3 + (1 - t)))) :
    0 < x := by
  unfold rN at hn
  unfold rD at hm
  unfold dN at hn'
  unfold dD at hm'
  affine_bnb [ht] [hn, hm, hn', hm', hr, hw, hx]

lemma quad_mono {h w x y : ℝ} (hh : 0 < h) (hx : 0 < x) (hxy : x ≤ y) (hq : 0 < (0.21 * h + 0.31 * x) * x - w) :
    w < (0.21 * h + 0.31 * y) * y := by
  have : (0.21 * h + 0.31 * x) * x ≤ (0.21 * h + 0.31 * y) * y :=
    mul_le_mul (by linarith) hxy hx.le (by linarith)
  linarith

/-- the collocation interval of the ringdown fit reaches far enough below the ringdown frequency -/
lemma rd_width {a : ℝ} (h1 : -1 ≤ a) (h2 : a ≤ 1) (x : ℝ)
    (hx : 0.7 * (rN (1 - a) / rD (1 - a)) + 1.25 * (dN (1 - a) / dD (1 - a)) - 0.6 * fISCOof a ≤ x) :
    1.25 * (dN (1 - a) / dD (1 - a)) * (rN (1 - a) / rD (1 - a) + 1.25 * (dN (1 - a) / dD (1 - a))) <
      (0.21 * (rN (1 - a) / rD (1 - a) + 1.25 * (dN (1 - a) / dD (1 - a))) + 0.31 * x) * x := by
  have ht : 0 ≤ 1 - a ∧ 1 - a ≤ 2 := by constructor <;> linarith
  have pr := rD_pos _ ht
  have pd := dD_pos _ ht
  have hR : 0 < rN (1 - a) / rD (1 - a) := div_pos (by linarith [gR_lo _ ht]) pr
  have hD : 0 < dN (1 - a) / dD (1 - a) := div_pos (by linarith [gD_lo _ ht]) pd
  have fin : ∀ n m n' m' z : ℝ, n / m = 10 * (rN (1 - a) / rD (1 - a)) → n' / m' = 10 * (dN (1 - a) / dD (1 - a)) →
      6 * fISCOof a ≤ z → 0 < 0.7 * (n / m) + 1.25 * (n' / m') - z →
      0 < (0.21 * (n / m + 1.25 * (n' / m')) + 0.31 * (0.7 * (n / m) + 1.25 * (n' / m') - z)) *
        (0.7 * (n / m) + 1.25 * (n' / m') - z) - 1.25 * (n' / m') * (n / m + 1.25 * (n' / m')) →
      1.25 * (dN (1 - a) / dD (1 - a)) * (rN (1 - a) / rD (1 - a) + 1.25 * (dN (1 - a) / dD (1 - a))) <
      (0.21 * (rN (1 - a) / rD (1 - a) + 1.25 * (dN (1 - a) / dD (1 - a))) + 0.31 * x) * x := by
    intro n m n' m' z e1 e2 hz p q
    rw [e1, e2] at p q
    have := quad_mono (h := 10 * (rN (1 - a) / rD (1 - a)) + 1.25 * (10 * (dN (1 - a) / dD (1 - a)))) (by linarith) p
      (show _ ≤ 10 * x by linarith) q
    linarith
  have sc : ∀ k x y : ℝ, k ≠ 0 → 10 * k * x / (k * y) = 10 * (x / y) := by
    intro k x y hk
    rw [mul_comm 10 k, mul_assoc, mul_div_mul_left _ _ hk, mul_div_assoc]
  rcases le_total (1 - a) 0.0003 with hA | hA
  · refine fin (100000000 * rN (1 - a)) (10000000 * rD (1 - a)) (100000000 * dN (1 - a)) (10000000 * dD (1 - a)) _ ?_ ?_ ?_
      (dt_x' (1 - a) _ _ _ _ _ _ _ _ ⟨ht.1, hA⟩ rfl rfl rfl rfl rfl rfl rfl rfl)
      (dt_isco' (1 - a) _ _ _ _ _ _ _ _ ⟨ht.1, hA⟩ rfl rfl rfl rfl rfl rfl rfl rfl)
    · rw [← sc 10000000 _ _ (by norm_num)]; norm_num
    · rw [← sc 10000000 _ _ (by norm_num)]; norm_num
    · have := isco_hi h1 h2
      rw [sub_sub_cancel]
      calc _ ≤ 6 * _ := mul_le_mul_of_nonneg_left this (by norm_num)
        _ = _ := by ring
  rcases le_total (1 - a) 0.0025 with hB | hB
  · refine fin (10000000 * rN (1 - a)) (1000000 * rD (1 - a)) (10000000 * dN (1 - a)) (1000000 * dD (1 - a)) _ ?_ ?_ ?_
      (dt_x'' (1 - a) _ _ _ _ _ _ _ ⟨hA, hB⟩ rfl rfl rfl rfl rfl rfl rfl)
      (dt_isco'' (1 - a) _ _ _ _ _ _ _ ⟨hA, hB⟩ rfl rfl rfl rfl rfl rfl rfl)
    · rw [← sc 1000000 _ _ (by norm_num)]; norm_num
    · rw [← sc 1000000 _ _ (by norm_num)]; norm_num
    · have := isco_hi_of h1 h2 (x := 1.05) (by norm_num) (by norm_num; linarith) (by
        have := dt_q (1 - a) a ⟨hA, hB⟩ (by ring)
        linarith)
      rw [sub_sub_cancel]
      calc _ ≤ 6 * _ := mul_le_mul_of_nonneg_left this (by norm_num)
        _ = _ := by ring
  · refine fin (100000 * rN (1 - a)) (10000 * rD (1 - a)) (100000 * dN (1 - a)) (10000 * dD (1 - a)) _ ?_ ?_ ?_
      (dt_x (1 - a) _ _ _ _ _ _ _ ⟨hB, ht.2⟩ rfl rfl rfl rfl rfl rfl rfl)
      (dt_isco (1 - a) _ _ _ _ _ _ _ ⟨hB, ht.2⟩ rfl rfl rfl rfl rfl rfl rfl)
    · rw [← sc 10000 _ _ (by norm_num)]; norm_num
    · rw [← sc 10000 _ _ (by norm_num)]; norm_num
    · have := (isco_tight h1 (by norm_num at hB ⊢; linarith)).2
      have i0 := (isco_pos h1 h2).1
      have : 3.1415 * fISCOof a ≤ _ := le_trans (mul_le_mul_of_nonneg_right (by linarith [Real.pi_gt_d4]) i0.le) this
      rw [div_mul_eq_mul_div, le_div_iff₀ (by norm_num)]
      linarith

lemma det_scale (x p r l : Fin 5 → ℝ) (a b c e : ℝ) :
    (!![1, x 0 * a, p 0 * b, r 0 * c, l 0 * e; 1, x 1 * a, p 1 * b, r 1 * c, l 1 * e; 1, x 2 * a, p 2 * b, r 2 * c, l 2 * e;
      1, x 3 * a, p 3 * b, r 3 * c, l 3 * e; 1, x 4 * a, p 4 * b, r 4 * c, l 4 * e] : Matrix (Fin 5) (Fin 5) ℝ).det =
    a * b * c * e * (!![1, x 0, p 0, r 0, l 0; 1, x 1, p 1, r 1, l 1; 1, x 2, p 2, r 2, l 2; 1, x 3, p 3, r 3, l 3;
      1, x 4, p 4, r 4, l 4] : Matrix (Fin 5) (Fin 5) ℝ).det := by
  rw [det_five, det_five (fun i => x i * a) (fun i => p i * b) (fun i => r i * c) (fun i => l i * e)]
  unfold alt4
  ring

lemma isco_lo28 {a : ℝ} (h1 : -1 ≤ a) (h2 : a ≤ 1) : 0.0113 ≤ fISCOof a := by
  obtain ⟨u, hr, u1, u3, hau, -⟩ := isco_exists h1 h2
  rw [fISCO_eq hr (by linarith)]
  have h := iscoOmega_strictMono.monotoneOn (Set.mem_Ici.2 le_rfl) (Set.mem_Ici.2 u1) u1
  have e1 : iscoSpin 1 = 1 := by unfold iscoSpin; norm_num
  simp only [e1, ← hau] at h
  have h3 : u ^ 3 ≤ 3 ^ 3 := pow_le_pow_left₀ (by linarith) u3 3
  have hp := Real.pi_lt_d4
  have hp0 := Real.pi_pos
  rw [div_div, le_div_iff₀ (mul_pos (by linarith) hp0)]
  nlinarith

/-- shape of the collocation interval of the ringdown fit -/
lemma rd_shape {theta : Theta} (h : theta.Physical) :
    let r := fRDof (spinOf theta) (eradOf theta)
    let w := fdampOf (spinOf theta) (eradOf theta)
    let W := r + 1.25 * w - 0.6 * (r / 2 + fISCOof (spinOf theta))
    0 < W ∧ W ≤ 0.7 * (r + 1.25 * w) ∧ 1.25 * w * (r + 1.25 * w) < (0.21 * (r + 1.25 * w) + 0.31 * W) * W := by
  have a1 := spin_gt h
  have a2 := spin_lt h
  have hE := erad_range h
  have hi := (isco_pos a1.le a2.le).1
  have h28 := isco_lo28 a1.le a2.le
  have hw := fdamp_range h
  have hord := ringdown_order h
  have ht : 0 ≤ 1 - spinOf theta ∧ 1 - spinOf theta ≤ 2 := by constructor <;> linarith
  intro r w W
  have hE1 : 0 < 1 - eradOf theta := by linarith
  have er : rN (1 - spinOf theta) / rD (1 - spinOf theta) = r * (1 - eradOf theta) := by
    change _ = fRDof _ _ * _; rw [fRDof_eq, div_mul_cancel₀ _ hE1.ne']
  have ew : dN (1 - spinOf theta) / dD (1 - spinOf theta) = w * (1 - eradOf theta) := by
    change _ = fdampOf _ _ * _; rw [fdampOf_eq, div_mul_cancel₀ _ hE1.ne']
  have hq := rd_width a1.le a2.le (W * (1 - eradOf theta)) (by
    rw [er, ew]
    change _ ≤ (r + 1.25 * w - 0.6 * (r / 2 + fISCOof (spinOf theta))) * (1 - eradOf theta)
    nlinarith [mul_pos hi hE.1])
  rw [er, ew] at hq
  change 0.0015 < w ∧ w < _ at hw
  change 0.6 * (r / 2 + _) + 1.25 * w < r at hord
  have hWd : W = r + 1.25 * w - 0.6 * (r / 2 + fISCOof (spinOf theta)) := rfl
  clear_value W r w
  refine ⟨by linarith, ?_, ?_⟩
  · norm_num at hw h28 hWd ⊢
    linarith
  · have : 0 < ((0.21 * (r + 1.25 * w) + 0.31 * W) * W - 1.25 * w * (r + 1.25 * w)) * (1 - eradOf theta) ^ 2 := by
      linarith
    have := pos_of_mul_pos_left this (by positivity)
    linarith

lemma inv_sqrt2_range : 0.8535533 ≤ 1 / 2 + 1 / (2 * Real.sqrt 2) ∧ 1 / 2 + 1 / (2 * Real.sqrt 2) ≤ 0.8535534 := by
  have e : 1 / (2 * Real.sqrt 2) = Real.sqrt 2 / 4 := by
    rw [div_eq_div_iff (by positivity) (by norm_num)]
    have := Real.mul_self_sqrt (show (0 : ℝ) ≤ 2 by norm_num)
    linear_combination (-2) * this
  have l : 1.4142134 ≤ Real.sqrt 2 := Real.le_sqrt_of_sq_le (by norm_num)
  have u : Real.sqrt 2 ≤ 1.4142136 := Real.sqrt_le_iff.2 ⟨by norm_num, by norm_num⟩
  rw [e]
  constructor <;> norm_num at l u ⊢ <;> linarith

/-- the collocation matrix of a fit on the nodes of an interval of the right shape is invertible -/
lemma rd_matrix_det {r w W c1 : ℝ} (hr : 0 < r) (hw : 0 < w) (hW : 0 < W) (hW7 : W ≤ 0.7 * (r + 1.25 * w))
    (hq : 1.25 * w * (r + 1.25 * w) < (0.21 * (r + 1.25 * w) + 0.31 * W) * W)
    (hc1 : 0.8535533 ≤ c1 ∧ c1 ≤ 0.8535534) :
    (ringdown_phase_matrix ![r + 1.25 * w - W, r + 1.25 * w - c1 * W, r + 1.25 * w - 0.5 * W, r, r + 1.25 * w] r w).det ≠ 0 := by
  obtain ⟨H, hH⟩ : ∃ H, H = r + 1.25 * w := ⟨_, rfl⟩
  rw [← hH] at hW7 hq ⊢
  have hH0 : 0 < H := by rw [hH]; positivity
  obtain ⟨d, hd⟩ : ∃ d, d = W / H := ⟨_, rfl⟩
  obtain ⟨t, ht⟩ : ∃ t, t = 1.25 * w / W := ⟨_, rfl⟩
  have hWd : W = d * H := by rw [hd, div_mul_cancel₀ _ hH0.ne']
  have hwt : 1.25 * w = t * W := by rw [ht, div_mul_cancel₀ _ hW.ne']
  have d0 : 0 < d := by rw [hd]; positivity
  have d7 : d ≤ 0.7 := by rw [hd, div_le_iff₀ hH0]; exact hW7
  have t0 : 0 < t := by rw [ht]; positivity
  have t5 : t ≤ 0.21 + 0.31 * d := by
    rw [ht, div_le_iff₀ hW, hd]
    refine le_of_mul_le_mul_right ?_ hH0
    have : (0.21 + 0.31 * (W / H)) * W * H = (0.21 * H + 0.31 * W) * W := by field_simp
    rw [this]; exact hq.le
  have y0 : 0 < 1 - d * 1 := by norm_num at d7; linarith
  have y1 : 0 < 1 - d * c1 := by norm_num at d7 hc1; nlinarith
  have y2 : 0 < 1 - d * 0.5 := by norm_num at d7 ⊢; linarith
  have t1 : t ≤ 0.5 := by norm_num at d7 t5 ⊢; linarith
  have y3 : 0 < 1 - d * t := by norm_num at t1; nlinarith
  -- inverse cube roots of the nodes
  have cube {y : ℝ} (hy : 0 < y) : (y ^ (-((1 : ℝ) / 3))) ^ 3 * y = 1 := by
    rw [← Real.rpow_natCast, ← Real.rpow_mul hy.le]
    norm_num
    rw [Real.rpow_neg_one, inv_mul_cancel₀ hy.ne']
  have p {y : ℝ} (hy : 0 < y) : 0 < y ^ (-((1 : ℝ) / 3)) := Real.rpow_pos_of_pos hy _
  have hx : ∀ {c : ℝ}, 0 ≤ c → c ≤ 1 → 0 ≤ d * c ∧ d * c ≤ 0.8 := by
    intro c c0 c1
    refine ⟨by positivity, ?_⟩
    norm_num at d7 ⊢
    nlinarith
  have hN := dt_det d t c1 _ _ _ _ ⟨d0, d7⟩ ⟨t0, t5⟩ hc1 (p y0) (p y1) (p y2) (p y3) (cube y0) (cube y1) (cube y2) (cube y3)
    (root_close (by simpa using hx zero_le_one le_rfl) (by simpa using cube y0))
    (root_close (hx (by norm_num at hc1; linarith) (by norm_num at hc1; linarith)) (cube y1))
    (root_close (hx (by norm_num) (by norm_num)) (cube y2)) (root_close (hx t0.le (by norm_num at t1; linarith)) (cube y3))
  have node {c : ℝ} (hc : 0 < 1 - d * c) : H - c * W = H * (1 - d * c) ∧
      (H - c * W) ^ (-((1 : ℝ) / 3)) = (1 - d * c) ^ (-((1 : ℝ) / 3)) * H ^ (-((1 : ℝ) / 3)) ∧
      (H - c * W) ^ (-2 : ℤ) = ((1 - d * c) ^ (-((1 : ℝ) / 3))) ^ 6 * H ^ (-2 : ℤ) ∧
      (H - c * W) ^ (-4 : ℤ) = ((1 - d * c) ^ (-((1 : ℝ) / 3))) ^ 12 * H ^ (-4 : ℤ) := by
    have e : H - c * W = H * (1 - d * c) := by rw [hWd]; ring
    have k := cube hc
    have k' : ((1 - d * c) ^ (-((1 : ℝ) / 3))) ^ 3 = (1 - d * c)⁻¹ := eq_inv_of_mul_eq_one_left k
    refine ⟨e, ?_, ?_, ?_⟩
    · rw [e, Real.mul_rpow hH0.le hc.le, mul_comm]
    · rw [e, mul_zpow, show ∀ x : ℝ, x ^ 6 = (x ^ 3) ^ 2 from fun x => by ring, k', mul_comm, inv_pow]
      rfl
    · rw [e, mul_zpow, show ∀ x : ℝ, x ^ 12 = (x ^ 3) ^ 4 from fun x => by ring, k', mul_comm, inv_pow]
      rfl
  have lor (c : ℝ) : -dphase0 / (w * w + ((H - c * W) - r) * ((H - c * W) - r)) =
      t ^ 2 / (t ^ 2 + 1.5625 * (t - c) ^ 2) * (-dphase0 / w ^ 2) := by
    have e : (H - c * W) - r = (t - c) * W := by rw [hH]; linear_combination hwt
    have ew : w = t * W / 1.25 := by rw [← hwt]; norm_num
    rw [e, ew]
    have : t ^ 2 + 1.5625 * (t - c) ^ 2 ≠ 0 := by positivity
    have : t * W / 1.25 * (t * W / 1.25) + (t - c) * W * ((t - c) * W) ≠ 0 :=
      (add_pos_of_pos_of_nonneg (by positivity) (mul_self_nonneg _)).ne'
    field_simp
    ring
  obtain ⟨-, a0, b0, c0⟩ := node y0
  obtain ⟨-, a1, b1, c1'⟩ := node y1
  obtain ⟨-, a2, b2, c2⟩ := node y2
  obtain ⟨-, a3, b3, c3⟩ := node y3
  have l0 := lor 1
  have l1 := lor c1
  have l2 := lor 0.5
  have l3 := lor t
  have l4 := lor 0
  have e3 : H - t * W = r := by rw [hH]; linear_combination hwt
  rw [e3] at a3 b3 c3 l3
  rw [one_mul] at a0 b0 c0 l0
  rw [zero_mul, sub_zero] at l4
  have l3' : t ^ 2 / (t ^ 2 + 1.5625 * (t - t) ^ 2) = 1 := by
    rw [sub_self, zero_pow two_ne_zero, mul_zero, add_zero, div_self (by positivity)]
  have l4' : t ^ 2 / (t ^ 2 + 1.5625 * (t - 0) ^ 2) = 1 / 2.5625 := by
    rw [sub_zero, show t ^ 2 + 1.5625 * t ^ 2 = t ^ 2 * 2.5625 by ring, ← div_div, div_self (by positivity)]
  have l2' : t ^ 2 / (t ^ 2 + 1.5625 * (t - 0.5) ^ 2) = t ^ 2 / (t ^ 2 + 1.5625 * (0.5 - t) ^ 2) := by
    congr 3; ring
  rw [l3'] at l3
  rw [l4'] at l4
  rw [l2'] at l2
  have hS := det_scale ![(1 - d * 1) ^ (-((1 : ℝ) / 3)), (1 - d * c1) ^ (-((1 : ℝ) / 3)), (1 - d * 0.5) ^ (-((1 : ℝ) / 3)),
      (1 - d * t) ^ (-((1 : ℝ) / 3)), 1]
    ![((1 - d * 1) ^ (-((1 : ℝ) / 3))) ^ 6, ((1 - d * c1) ^ (-((1 : ℝ) / 3))) ^ 6, ((1 - d * 0.5) ^ (-((1 : ℝ) / 3))) ^ 6,
      ((1 - d * t) ^ (-((1 : ℝ) / 3))) ^ 6, 1 ^ 6]
    ![((1 - d * 1) ^ (-((1 : ℝ) / 3))) ^ 12, ((1 - d * c1) ^ (-((1 : ℝ) / 3))) ^ 12, ((1 - d * 0.5) ^ (-((1 : ℝ) / 3))) ^ 12,
      ((1 - d * t) ^ (-((1 : ℝ) / 3))) ^ 12, 1 ^ 12]
    ![t ^ 2 / (t ^ 2 + 1.5625 * (t - 1) ^ 2), t ^ 2 / (t ^ 2 + 1.5625 * (t - c1) ^ 2),
      t ^ 2 / (t ^ 2 + 1.5625 * (0.5 - t) ^ 2), 1, 1 / 2.5625]
    (H ^ (-((1 : ℝ) / 3))) (H ^ (-2 : ℤ)) (H ^ (-4 : ℤ)) (-dphase0 / w ^ 2)
  simp only [Matrix.cons_val] at hS
  have hph : dphase0 ≠ 0 := by unfold dphase0 PI; positivity
  have hprod := mul_ne_zero (mul_ne_zero (mul_ne_zero (mul_ne_zero (p hH0).ne' (zpow_ne_zero (-2) hH0.ne'))
    (zpow_ne_zero (-4) hH0.ne')) (div_ne_zero (neg_ne_zero.2 hph) (pow_ne_zero 2 hw.ne'))) hN
  rw [← hS] at hprod
  unfold ringdown_phase_matrix
  simp only [Matrix.cons_val]
  rw [a0, b0, c0, l0, a1, b1, c1', l1, a2, b2, c2, l2, a3, b3, c3, l3, l4]
  rw [one_pow, one_pow, one_mul, one_mul, one_mul, one_mul] at hprod
  rw [one_mul]
  exact hprod

lemma nodes_eq (theta : Theta) : ringdown_phase_nodes theta =
    ![fRDof (spinOf theta) (eradOf theta) + 1.25 * fdampOf (spinOf theta) (eradOf theta) -
        (fRDof (spinOf theta) (eradOf theta) + 1.25 * fdampOf (spinOf theta) (eradOf theta) -
          0.6 * (fRDof (spinOf theta) (eradOf theta) / 2 + fISCOof (spinOf theta))),
      fRDof (spinOf theta) (eradOf theta) + 1.25 * fdampOf (spinOf theta) (eradOf theta) - (1 / 2 + 1 / (2 * Real.sqrt 2)) *
        (fRDof (spinOf theta) (eradOf theta) + 1.25 * fdampOf (spinOf theta) (eradOf theta) -
          0.6 * (fRDof (spinOf theta) (eradOf theta) / 2 + fISCOof (spinOf theta))),
      fRDof (spinOf theta) (eradOf theta) + 1.25 * fdampOf (spinOf theta) (eradOf theta) - 0.5 *
        (fRDof (spinOf theta) (eradOf theta) + 1.25 * fdampOf (spinOf theta) (eradOf theta) -
          0.6 * (fRDof (spinOf theta) (eradOf theta) / 2 + fISCOof (spinOf theta))),
      fRDof (spinOf theta) (eradOf theta),
      fRDof (spinOf theta) (eradOf theta) + 1.25 * fdampOf (spinOf theta) (eradOf theta)] := by
  unfold ringdown_phase_nodes
  rw [cutoffs_eq]
  generalize fRDof (spinOf theta) (eradOf theta) = r
  generalize fdampOf (spinOf theta) (eradOf theta) = w
  generalize fISCOof (spinOf theta) = I
  funext j
  fin_cases j
  · change (0 : ℝ) * (r + 1.25 * w - 0.6 * (0.5 * r + I)) + 0.6 * (0.5 * r + I) =
      r + 1.25 * w - (r + 1.25 * w - 0.6 * (r / 2 + I))
    ring
  · change (1 / 2 - 1 / (2 * Real.sqrt 2)) * (r + 1.25 * w - 0.6 * (0.5 * r + I)) + 0.6 * (0.5 * r + I) =
      r + 1.25 * w - (1 / 2 + 1 / (2 * Real.sqrt 2)) * (r + 1.25 * w - 0.6 * (r / 2 + I))
    ring
  · change (1 / 2 : ℝ) * (r + 1.25 * w - 0.6 * (0.5 * r + I)) + 0.6 * (0.5 * r + I) =
      r + 1.25 * w - 0.5 * (r + 1.25 * w - 0.6 * (r / 2 + I))
    ring
  · rfl
  · change (1 : ℝ) * (r + 1.25 * w - 0.6 * (0.5 * r + I)) + 0.6 * (0.5 * r + I) = r + 1.25 * w
    ring

/-- the collocation matrix of the ringdown phase is invertible for every physical binary -/
lemma rd_det {theta : Theta} (h : theta.Physical) :
    (ringdown_phase_matrix (ringdown_phase_nodes theta) (cut theta).fRD (cut theta).fdamp).det ≠ 0 := by
  obtain ⟨s1, s2, s3⟩ := rd_shape h
  have hr := (fRD_range h).1
  have hw := (fdamp_range h).1
  have hc : cut theta = ⟨fRDof (spinOf theta) (eradOf theta), fdampOf (spinOf theta) (eradOf theta),
      fMECOof (etaOf theta) (dOf theta) (chipnOf theta) (theta.chi1 - theta.chi2), fISCOof (spinOf theta)⟩ := cutoffs_eq theta
  have hd := rd_matrix_det (by norm_num at hr; linarith) (by norm_num at hw; linarith) s1 s2 s3 inv_sqrt2_range
  have hn : ringdown_phase_nodes theta = _ := nodes_eq theta
  rw [hn, hc]
  exact hd

end XAS
end Ripple

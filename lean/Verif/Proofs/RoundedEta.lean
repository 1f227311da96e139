/-
  The symmetric mass ratio in rounded arithmetic, and the round trip.
-/
import Verif.Proofs.Rounded

namespace Ripple
namespace Fp

noncomputable section

variable {F : Fmt}

/-- Range of masses for which the computation of the mass ratio stays in range. -/
structure Pair (F : Fmt) (m1 m2 : ℝ) : Prop where
  pos1 : 0 < m1
  pos2 : 0 < m2
  sum : F.minNormal ≤ m1 + m2
  low : F.minNormal ≤ m1 * m2
  high : 2 * (m1 + m2) ^ 2 < 2 ^ F.emax

/-- The three intermediate results and the mass ratio, with their relative errors. -/
lemma eta_steps (hF : F.WF) {m1 m2 : ℝ} (h : Pair F m1 m2) :
    ∃ a S Q : ℝ, F.mul (.fin m1) (.fin m2) = .fin a ∧ F.add (.fin m1) (.fin m2) = .fin S
      ∧ F.mul (.fin S) (.fin S) = .fin Q ∧ etaOf F (.fin m1) (.fin m2) = .fin (F.rd (a / Q))
      ∧ a = F.rd (m1 * m2) ∧ S = F.rd (m1 + m2) ∧ Q = F.rd (S * S)
      ∧ |a - m1 * m2| ≤ F.u * (m1 * m2) ∧ |S - (m1 + m2)| ≤ F.u * (m1 + m2) ∧ |Q - S * S| ≤ F.u * (S * S)
      ∧ 0 < a ∧ 0 < S ∧ 0 < Q ∧ F.minNormal ≤ a ∧ F.minNormal ≤ S ∧ F.minNormal ≤ Q
      ∧ a < 2 ^ F.emax ∧ S < 2 ^ F.emax ∧ Q < 2 ^ F.emax ∧ 2 * a ≤ Q := by
  have hp := hF.p1
  have hu := u_pos (F := F)
  have hu8 := hF.u_le
  have hn0 := minNormal_pos (F := F)
  have h1 := h.pos1
  have h2 := h.pos2
  have hS0 : 0 < m1 + m2 := by linarith
  have ha0 : 0 < m1 * m2 := mul_pos h1 h2
  have hea := rnd_rel (F := F) (x := m1 * m2) (by rw [abs_of_pos ha0]; exact h.low)
  have heS := rnd_rel (F := F) (x := m1 + m2) (by rw [abs_of_pos hS0]; exact h.sum)
  have hna := minNormal_le_rnd hp h.low
  have hnS := minNormal_le_rnd hp h.sum
  rw [← rd_normal hp h.low] at hea hna
  rw [← rd_normal hp h.sum] at heS hnS
  rw [abs_of_pos ha0] at hea
  rw [abs_of_pos hS0] at heS
  obtain ⟨a, hae⟩ : ∃ a, a = F.rd (m1 * m2) := ⟨_, rfl⟩
  obtain ⟨S, hSe⟩ : ∃ S, S = F.rd (m1 + m2) := ⟨_, rfl⟩
  rw [← hae] at hea hna
  rw [← hSe] at heS hnS
  have ha' := abs_le.1 hea
  have hS' := abs_le.1 heS
  have hSlo : 7 / 8 * (m1 + m2) ≤ S := by nlinarith only [hS'.1, hu8, hS0]
  have hShi : S ≤ 9 / 8 * (m1 + m2) := by nlinarith only [hS'.2, hu8, hS0]
  have hSp : 0 < S := hn0.trans_le hnS
  have hap : 0 < a := hn0.trans_le hna
  have hSS : 49 / 64 * (m1 + m2) ^ 2 ≤ S * S := by nlinarith only [hSlo, hS0]
  have hSS' : S * S ≤ 81 / 64 * (m1 + m2) ^ 2 := by nlinarith only [hShi, hSp, hS0]
  have h4 : 4 * (m1 * m2) ≤ (m1 + m2) ^ 2 := by nlinarith only [sq_nonneg (m1 - m2)]
  have hlow := h.low
  have hhigh := h.high
  have hQn0 : F.minNormal ≤ S * S := by linarith
  have hSSp : 0 < S * S := mul_pos hSp hSp
  have heQ := rnd_rel (F := F) (x := S * S) (by rw [abs_of_pos hSSp]; exact hQn0)
  have hnQ := minNormal_le_rnd hp hQn0
  rw [← rd_normal hp hQn0] at heQ hnQ
  rw [abs_of_pos hSSp] at heQ
  obtain ⟨Q, hQe⟩ : ∃ Q, Q = F.rd (S * S) := ⟨_, rfl⟩
  rw [← hQe] at heQ hnQ
  have hQ' := abs_le.1 heQ
  have hQlo : 7 / 8 * (S * S) ≤ Q := by nlinarith only [hQ'.1, hu8, hSSp]
  have hQhi : Q ≤ 9 / 8 * (S * S) := by nlinarith only [hQ'.2, hu8, hSSp]
  have hQp : 0 < Q := hn0.trans_le hnQ
  have hahi : a ≤ 9 / 8 * (m1 * m2) := by nlinarith only [ha'.2, hu8, ha0]
  have h2aQ : 2 * a ≤ Q := by linarith
  have hQmax : Q < 2 ^ F.emax := by have := sq_nonneg (m1 + m2); linarith
  have hamax : a < 2 ^ F.emax := by linarith
  have hSmax : S < 2 ^ F.emax := by
    rcases le_or_gt (m1 + m2) 1 with hc | hc
    · have := hF.max_ge; linarith
    · nlinarith only [hc, hShi, hhigh]
  have e1 : F.mul (.fin m1) (.fin m2) = .fin a := by rw [hae]; exact mul_fin ha0.le (by rwa [← hae])
  have e2 : F.add (.fin m1) (.fin m2) = .fin S := by rw [hSe]; exact add_fin hS0.le (by rwa [← hSe])
  have e3 : F.mul (.fin S) (.fin S) = .fin Q := by rw [hQe]; exact mul_fin hSSp.le (by rwa [← hQe])
  have hq : a / Q ≤ 1 / 2 := by rw [div_le_iff₀ hQp]; linarith
  have hq0 : 0 ≤ a / Q := by positivity
  have e4 : etaOf F (.fin m1) (.fin m2) = .fin (F.rd (a / Q)) := by
    unfold etaOf
    rw [e2, e3, e1]
    refine div_fin hQp.ne' hq0 ?_
    have h5 := rd_mono hp hq0 hq
    have h6 := hF.float_pow (k := -1) (by norm_num; have := hF.min_le; linarith)
    norm_num at h6 h5
    rw [h6] at h5
    have := hF.max_ge; linarith
  exact ⟨a, S, Q, e1, e2, e3, e4, hae, hSe, hQe, hea, heS, heQ, hap, hSp, hQp, hna, hnS, hnQ, hamax, hSmax, hQmax, h2aQ⟩

/-- The symmetric mass ratio of masses that differ by enough is at most a quarter. -/
lemma eta_le_quarter (hF : F.WF) {m1 m2 : ℝ} (h : Pair F m1 m2) (hd : 4 * F.u * (m1 + m2) ^ 2 ≤ (m1 - m2) ^ 2) :
    ∃ eta, etaOf F (.fin m1) (.fin m2) = .fin eta ∧ F.rd eta = eta ∧ 0 ≤ eta ∧ eta ≤ 1 / 4 := by
  obtain ⟨a, S, Q, -, -, -, e, -, -, -, ha, hS, hQ, ha0, hS0, hQ0, -⟩ := eta_steps hF h
  have hu := u_pos (F := F)
  have hu8 := hF.u_le
  have hT : 0 < m1 + m2 := by linarith [h.pos1, h.pos2]
  have ha' := (abs_le.1 ha).2
  have hS' := (abs_le.1 hS).1
  have hQ' := (abs_le.1 hQ).1
  have h1 : (1 - F.u) * (m1 + m2) ≤ S := by linarith
  have h2 : ((1 - F.u) * (m1 + m2)) ^ 2 ≤ S * S := by
    rw [pow_two]; exact mul_self_le_mul_self (mul_nonneg (by linarith) hT.le) h1
  have h3 : (1 - F.u) * (S * S) ≤ Q := by linarith
  have h4 : (1 - F.u) * ((1 - F.u) * (m1 + m2)) ^ 2 ≤ Q :=
    (mul_le_mul_of_nonneg_left h2 (by linarith)).trans h3
  have h5 : 4 * (m1 * m2) ≤ (1 - 4 * F.u) * (m1 + m2) ^ 2 := by nlinarith only [hd]
  have h6 : 4 * a ≤ (1 + F.u) * ((1 - 4 * F.u) * (m1 + m2) ^ 2) := by
    have := mul_le_mul_of_nonneg_left h5 (show (0 : ℝ) ≤ 1 + F.u by linarith); linarith
  have h7 : (1 + F.u) * (1 - 4 * F.u) ≤ (1 - F.u) * (1 - F.u) ^ 2 := by nlinarith only [hu, hu8, mul_pos hu hu]
  have h8 := mul_le_mul_of_nonneg_right h7 (sq_nonneg (m1 + m2))
  have hq : a / Q ≤ 1 / 4 := by
    rw [div_le_iff₀ hQ0]; rw [mul_pow] at h4; linarith
  have hq0 : 0 ≤ a / Q := by positivity
  refine ⟨_, e, rd_idem hF.p1 _, rd_nonneg hq0, ?_⟩
  have := rd_mono hF.p1 hq0 hq
  rwa [hF.quarter] at this

lemma rnd_scale {x : ℝ} (j : ℕ) (h : F.minNormal ≤ x) : F.rnd (2 ^ j * x) = 2 ^ j * F.rnd x := by
  have hx : 0 < x := minNormal_pos.trans_le h
  have hj : (1 : ℝ) ≤ 2 ^ j := one_le_pow₀ one_le_two
  have hjx : F.minNormal ≤ 2 ^ j * x := by nlinarith
  have hlog : Int.log 2 |2 ^ j * x| = Int.log 2 |x| + j := by
    have a := log_le_abs hx.ne'
    have b := abs_lt_log x
    rw [abs_of_pos hx] at *
    refine log_eq ?_ ?_ <;> rw [abs_of_pos (by positivity)]
    · rw [zpow_add₀ two_ne_zero, zpow_natCast, mul_comm]; exact mul_le_mul_of_nonneg_left a (by positivity)
    · rw [show Int.log 2 x + (j : ℤ) + 1 = (Int.log 2 x + 1) + j by ring, zpow_add₀ two_ne_zero, zpow_natCast, mul_comm]
      exact mul_lt_mul_of_pos_right b (by positivity)
  have hl : F.lsb (2 ^ j * x) = F.lsb x + j := by
    rw [lsb_normal (by rwa [abs_of_pos (by positivity)]), lsb_normal (by rwa [abs_of_pos hx]), hlog]; ring
  unfold Fmt.rnd
  rw [hl, zpow_add₀ two_ne_zero, zpow_natCast]
  have hz := two_zpow_pos (F.lsb x)
  rw [show 2 ^ j * x / (2 ^ F.lsb x * 2 ^ j) = x / 2 ^ F.lsb x by field_simp]; ring

/-- Equal masses have a mass ratio of exactly a quarter. -/
lemma eta_equal (hF : F.WF) {m : ℝ} (hm : F.rd m = m) (hn : F.minNormal ≤ m) (h : Pair F m m) :
    etaOf F (.fin m) (.fin m) = .fin (1 / 4) := by
  obtain ⟨a, S, Q, -, -, -, e, ha, hS, hQ, -, -, -, ha0, -⟩ := eta_steps hF h
  have e1 : S = 2 * m := by
    rw [hS, ← two_mul]; have := rd_scale_up 1 hF.p1 hm hn; rwa [pow_one] at this
  have e2 : Q = 4 * a := by
    rw [hQ, e1, ha, show 2 * m * (2 * m) = 2 ^ 2 * (m * m) by ring, rd_normal hF.p1 h.low, rd_normal hF.p1, rnd_scale 2 h.low]
    · norm_num
    · have := h.low; have := minNormal_pos (F := F); linarith
  rw [e, e2, show a / (4 * a) = 1 / 4 by field_simp, hF.quarter]

/-- A power of two and the next number of the format: the mass ratio exceeds a quarter. -/
lemma eta_neighbours (hF : F.WF) {k : ℤ} (h : Pair F (2 ^ k * (1 + 2 * F.u)) (2 ^ k)) :
    etaOf F (.fin (2 ^ k * (1 + 2 * F.u))) (.fin (2 ^ k)) = .fin (1 / 4 * (1 + 2 * F.u)) := by
  obtain ⟨a, S, Q, -, -, -, e, ha, hS, hQ, -⟩ := eta_steps hF h
  have hp := hF.p1
  have hb := hF.bits
  have hu := u_pos (F := F)
  have hu8 := hF.u_le
  have hz := two_zpow_pos k
  obtain ⟨q, hq⟩ : ∃ q, F.p = q + 2 := ⟨F.p - 2, by omega⟩
  have hue : 2 * F.u * 2 ^ (q + 1) = 1 := by
    unfold Fmt.u; rw [hq, ← zpow_natCast, mul_assoc, ← zpow_add₀ two_ne_zero]; push_cast
    rw [show -((q : ℤ) + 2) + (q + 1) = -1 by ring]; norm_num
  have hpow : (0 : ℤ) < 2 ^ (q + 1) := by positivity
  -- numbers with the significand of the next number
  have key : ∀ j : ℤ, F.minNormal ≤ 2 ^ j → F.rd (2 ^ j * (1 + 2 * F.u)) = 2 ^ j * (1 + 2 * F.u) := by
    intro j hj
    have hj' := (zpow_le_zpow_iff_right₀ (one_lt_two (α := ℝ))).1 hj
    refine rd_exact (2 ^ (q + 1) + 1) (k := j - (q + 1)) ?_ (by omega) ?_ (by nlinarith only [hj, hu, two_zpow_pos j])
    · have e1 : (2 : ℝ) ^ j = 2 ^ (q + 1) * 2 ^ (j - (q + 1)) := by
        rw [← zpow_natCast, ← zpow_add₀ two_ne_zero]; congr 1; push_cast; ring
      rw [e1]; push_cast
      linear_combination (2 : ℝ) ^ (j - (q + 1) : ℤ) * hue
    · rw [abs_of_pos (by omega), hq, pow_succ 2 (q + 1)]
      have : (2 : ℤ) ^ 1 ≤ 2 ^ (q + 1) := pow_le_pow_right₀ (by norm_num) (by omega)
      omega
  have h2k : F.minNormal ≤ 2 ^ (2 * k) * (1 + 2 * F.u) := by
    have := h.low
    rwa [show 2 ^ k * (1 + 2 * F.u) * 2 ^ k = 2 ^ (2 * k) * (1 + 2 * F.u) by
      rw [two_mul k, zpow_add₀ two_ne_zero]; ring] at this
  have h2k' : F.minNormal ≤ 2 ^ (2 * k) := by
    by_contra hc
    have h1 : (2 : ℝ) ^ (2 * k) < 2 ^ (F.qmin + F.p - 1) := not_le.1 hc
    have h2 := (zpow_lt_zpow_iff_right₀ (one_lt_two (α := ℝ))).1 h1
    have h3 : (2 : ℝ) ^ (2 * k) ≤ 2 ^ (F.qmin + F.p - 1 + (-1)) := zpow_le (by omega)
    rw [zpow_add₀ two_ne_zero] at h3
    unfold Fmt.minNormal at h2k
    have := two_zpow_pos (F.qmin + F.p - 1)
    norm_num at h3
    nlinarith
  have ea : a = 2 ^ (2 * k) * (1 + 2 * F.u) := by
    rw [ha, show 2 ^ k * (1 + 2 * F.u) * 2 ^ k = 2 ^ (2 * k) * (1 + 2 * F.u) by
      rw [two_mul k, zpow_add₀ two_ne_zero]; ring]
    exact key _ h2k'
  have eS : S = 2 ^ (k + 1) := by
    have ex : 2 ^ k * (1 + 2 * F.u) + 2 ^ k = 2 ^ (k + 1) * (1 + F.u) := by
      rw [zpow_add₀ two_ne_zero, zpow_one]; ring
    rw [hS, rd_normal hp h.sum, ex]
    have hk1 : (2 : ℝ) ^ (k + 1) = 2 * 2 ^ k := by rw [zpow_add₀ two_ne_zero, zpow_one]; ring
    have hx0 : 0 < (2 : ℝ) ^ (k + 1) * (1 + F.u) := by positivity
    have hlog : Int.log 2 |(2 : ℝ) ^ (k + 1) * (1 + F.u)| = k + 1 := by
      refine log_eq ?_ ?_ <;> rw [abs_of_pos hx0]
      · nlinarith only [two_zpow_pos (k + 1), hu]
      · rw [zpow_add₀ two_ne_zero (k + 1), zpow_one]; nlinarith only [two_zpow_pos (k + 1), hu8]
    have hl : F.lsb (2 ^ (k + 1) * (1 + F.u)) = k + 1 - (q + 1) := by
      rw [lsb_normal (by rw [abs_of_pos hx0, ← ex]; exact h.sum), hlog, hq]; push_cast; ring
    unfold Fmt.rnd
    rw [hl]
    have e1 : (2 : ℝ) ^ (k + 1) = 2 ^ (q + 1) * 2 ^ (k + 1 - (q + 1)) := by
      rw [← zpow_natCast, ← zpow_add₀ two_ne_zero]; congr 1; push_cast; ring
    have hz2 := two_zpow_pos (k + 1 - (q + 1))
    have e2 : 2 ^ (k + 1) * (1 + F.u) / 2 ^ (k + 1 - ((q : ℤ) + 1)) = ((2 ^ (q + 1) : ℤ) : ℝ) + 1 / 2 := by
      rw [div_eq_iff hz2.ne', e1]; push_cast
      linear_combination (2 : ℝ) ^ (k + 1 - (q + 1) : ℤ) / 2 * hue
    rw [e2, rne_half _ (by rw [pow_succ]; exact even_two.mul_left _), e1]; push_cast; rfl
  have eQ : Q = 2 ^ (2 * k + 2) := by
    have e1 : (2 : ℝ) ^ (k + 1) * 2 ^ (k + 1) = 2 ^ (2 * k + 2) := by rw [← zpow_add₀ two_ne_zero]; congr 1; ring
    rw [hQ, eS, e1]; refine hF.float_pow (h2k'.trans (zpow_le (by omega)))
  rw [e, ea, eQ]
  have e3 : 2 ^ (2 * k) * (1 + 2 * F.u) / 2 ^ (2 * k + 2) = 2 ^ (-2 : ℤ) * (1 + 2 * F.u) := by
    rw [zpow_add₀ two_ne_zero (2 * k) 2]; have := two_zpow_pos (2 * k); field_simp
  rw [e3, key (-2) (by norm_num; have := hF.min_le; linarith)]; norm_num

lemma InRange.pair {m1 m2 : ℝ} (h : InRange F m1 m2) : Pair F m1 m2 := by
  have h2 := h.pos
  have h1 : 0 < m1 := h2.trans_le h.le
  have := minNormal_pos (F := F)
  have := h.low
  exact ⟨h1, h2, by linarith, h.prod, by have := h.high; have := sq_nonneg (m1 + m2); linarith⟩

/-- relative perturbations of a power -/
lemma rpow_pert {x y q d e : ℝ} (hx : 0 < x) (hq0 : 0 ≤ q) (hq1 : q ≤ 1) (hd0 : 0 ≤ d) (hd1 : d < 1) (he : 0 ≤ e)
    (hl : (1 - d) * x ≤ y) (hh : y ≤ (1 + e) * x) : (1 - d) * x ^ q ≤ y ^ q ∧ y ^ q ≤ (1 + e) * x ^ q := by
  have hy : 0 < y := (mul_pos (by linarith) hx).trans_le hl
  have hX : 0 < x ^ q := Real.rpow_pos_of_pos hx q
  have k1 : 1 - d ≤ (1 - d) ^ q := by
    have := Real.rpow_le_rpow_of_exponent_ge (show (0 : ℝ) < 1 - d by linarith) (by linarith) hq1
    rwa [Real.rpow_one] at this
  have k2 : (1 + e) ^ q ≤ 1 + e := by
    have := Real.rpow_le_rpow_of_exponent_le (x := 1 + e) (by linarith) hq1
    rwa [Real.rpow_one] at this
  constructor
  · calc (1 - d) * x ^ q ≤ (1 - d) ^ q * x ^ q := mul_le_mul_of_nonneg_right k1 hX.le
      _ = ((1 - d) * x) ^ q := (Real.mul_rpow (by linarith) hx.le).symm
      _ ≤ y ^ q := Real.rpow_le_rpow (mul_nonneg (by linarith) hx.le) hl hq0
  · calc y ^ q ≤ ((1 + e) * x) ^ q := Real.rpow_le_rpow hy.le hh hq0
      _ = (1 + e) ^ q * x ^ q := Real.mul_rpow (by linarith) hx.le
      _ ≤ _ := mul_le_mul_of_nonneg_right k2 hX.le

/-- relative error of a quotient of perturbed quantities, rounded -/
lemma chirp_err {u e X Y A B r1 r2 M : ℝ} (hu : 0 < u) (hu8 : u ≤ 1 / 8) (he : 0 ≤ e) (he4 : e ≤ 1 / 4) (hX : 0 < X) (hY : 0 < Y)
    (hA1 : (1 - u) * X ≤ A) (hA2 : A ≤ (1 + u) * X) (hB1 : (1 - u) * Y ≤ B) (hB2 : B ≤ (1 + u) * Y)
    (hr1 : |r1 - A| ≤ e * A) (hr2 : |r2 - B| ≤ e * B) (hM : |M - r1 / r2| ≤ u * (r1 / r2)) :
    (1 - 2 * e - 3 * u) * (X / Y) ≤ M ∧ M ≤ (1 + 3 * e + 7 * u) * (X / Y) := by
  have a := abs_le.1 hr1
  have b := abs_le.1 hr2
  have c := abs_le.1 hM
  have hA : 0 < A := (mul_pos (by linarith) hX).trans_le hA1
  have hB : 0 < B := (mul_pos (by linarith) hY).trans_le hB1
  have r1l : (1 - e) * ((1 - u) * X) ≤ r1 := by
    have := mul_le_mul_of_nonneg_left hA1 (show (0 : ℝ) ≤ 1 - e by linarith); linarith
  have r1h : r1 ≤ (1 + e) * ((1 + u) * X) := by
    have := mul_le_mul_of_nonneg_left hA2 (show (0 : ℝ) ≤ 1 + e by linarith); linarith
  have r2l : (1 - e) * ((1 - u) * Y) ≤ r2 := by
    have := mul_le_mul_of_nonneg_left hB1 (show (0 : ℝ) ≤ 1 - e by linarith); linarith
  have r2h : r2 ≤ (1 + e) * ((1 + u) * Y) := by
    have := mul_le_mul_of_nonneg_left hB2 (show (0 : ℝ) ≤ 1 + e by linarith); linarith
  have h1e : 0 < 1 - e := by linarith
  have h1u : 0 < 1 - u := by linarith
  have r10 : 0 < r1 := (mul_pos h1e (mul_pos h1u hX)).trans_le r1l
  have r20 : 0 < r2 := (mul_pos h1e (mul_pos h1u hY)).trans_le r2l
  have hXY : 0 < X / Y := div_pos hX hY
  constructor
  · rcases le_or_gt (1 - 2 * e - 3 * u) 0 with hn | hn
    · have : 0 ≤ M := by have := div_pos r10 r20; nlinarith only [c.1, this, hu8]
      nlinarith only [this, hn, hXY]
    have q : (1 - e) * ((1 - u) * X) / ((1 + e) * ((1 + u) * Y)) ≤ r1 / r2 := div_le_div₀ r10.le r1l r20 r2h
    have q2 : (1 - 2 * e - 3 * u) * (X / Y) ≤ (1 - u) * ((1 - e) * ((1 - u) * X) / ((1 + e) * ((1 + u) * Y))) := by
      rw [mul_div_assoc', mul_div_assoc', div_le_div_iff₀ hY (by positivity)]
      have k : (1 - 2 * e - 3 * u) * ((1 + e) * (1 + u)) ≤ (1 - u) * ((1 - e) * (1 - u)) := by
        nlinarith only [hu, he, mul_nonneg he hu.le, mul_nonneg he he, mul_nonneg hu.le hu.le, mul_nonneg (mul_nonneg he he) hu.le, mul_nonneg (mul_nonneg hu.le hu.le) he]
      have := mul_le_mul_of_nonneg_right k (mul_pos hX hY).le
      nlinarith only [this]
    have := mul_le_mul_of_nonneg_left q h1u.le
    linarith [c.1]
  · have q : r1 / r2 ≤ (1 + e) * ((1 + u) * X) / ((1 - e) * ((1 - u) * Y)) := div_le_div₀ (by positivity) r1h (by positivity) r2l
    have q2 : (1 + u) * ((1 + e) * ((1 + u) * X) / ((1 - e) * ((1 - u) * Y))) ≤ (1 + 3 * e + 7 * u) * (X / Y) := by
      rw [mul_div_assoc', mul_div_assoc', div_le_div_iff₀ (by positivity) hY]
      have k : (1 + u) * ((1 + e) * (1 + u)) ≤ (1 + 3 * e + 7 * u) * ((1 - e) * (1 - u)) := by
        have k1 : 1 + e ≤ (1 + 3 * e) * (1 - e) := by nlinarith only [he, he4]
        have k2 : (1 + u) * (1 + u) ≤ (1 + 4 * u) * (1 - u) := by nlinarith only [hu, hu8]
        have k3 := mul_le_mul k1 k2 (by positivity) (mul_nonneg (by linarith) h1e.le)
        have k4 : (1 + 3 * e) * (1 + 4 * u) ≤ 1 + 3 * e + 7 * u := by nlinarith only [hu, he4]
        have k5 := mul_le_mul_of_nonneg_right k4 (mul_pos h1e h1u).le
        nlinarith only [k3, k5]
      have := mul_le_mul_of_nonneg_right k (mul_pos hX hY).le
      nlinarith only [this]
    have := mul_le_mul_of_nonneg_left q (show (0 : ℝ) ≤ 1 + u by linarith)
    linarith [c.2]

/-- relative error of the mass ratio -/
lemma eta_err {u P T a S Q y : ℝ} (hu : 0 < u) (hu8 : u ≤ 1 / 8) (hP : 0 < P) (hT : 0 < T) (ha : |a - P| ≤ u * P)
    (hS : |S - T| ≤ u * T) (hQ : |Q - S * S| ≤ u * (S * S)) (hy : |y - a / Q| ≤ u * (a / Q)) :
    (1 - 5 * u) * (P / T ^ 2) ≤ y ∧ y ≤ (1 + 8 * u) * (P / T ^ 2) := by
  have a' := abs_le.1 ha
  have b := abs_le.1 hS
  have c := abs_le.1 hQ
  have d := abs_le.1 hy
  have h1u : 0 < 1 - u := by linarith
  have al : (1 - u) * P ≤ a := by linarith
  have ah : a ≤ (1 + u) * P := by linarith
  have Sl : (1 - u) * T ≤ S := by linarith
  have Sh : S ≤ (1 + u) * T := by linarith
  have hS0 : 0 < S := (mul_pos h1u hT).trans_le Sl
  have Ql : (1 - u) * ((1 - u) * T) ^ 2 ≤ Q := by
    have := mul_le_mul_of_nonneg_left (mul_self_le_mul_self (mul_pos h1u hT).le Sl) h1u.le
    rw [pow_two]; linarith
  have Qh : Q ≤ (1 + u) * ((1 + u) * T) ^ 2 := by
    have := mul_le_mul_of_nonneg_left (mul_self_le_mul_self hS0.le Sh) (show (0 : ℝ) ≤ 1 + u by linarith)
    rw [pow_two]; linarith
  have a0 : 0 < a := (mul_pos h1u hP).trans_le al
  have Q0 : 0 < Q := (by positivity : (0 : ℝ) < (1 - u) * ((1 - u) * T) ^ 2).trans_le Ql
  have hPT : 0 < P * T ^ 2 := by positivity
  constructor
  · have q : (1 - u) * P / ((1 + u) * ((1 + u) * T) ^ 2) ≤ a / Q := div_le_div₀ a0.le al Q0 Qh
    have q2 : (1 - 5 * u) * (P / T ^ 2) ≤ (1 - u) * ((1 - u) * P / ((1 + u) * ((1 + u) * T) ^ 2)) := by
      rw [mul_div_assoc', mul_div_assoc', div_le_div_iff₀ (by positivity) (by positivity)]
      have k : (1 - 5 * u) * (1 + u) ^ 3 ≤ (1 - u) ^ 2 := by nlinarith only [hu, pow_pos hu 2, pow_pos hu 3, pow_pos hu 4]
      have := mul_le_mul_of_nonneg_right k hPT.le
      nlinarith only [this]
    have := mul_le_mul_of_nonneg_left q h1u.le
    linarith
  · have q : a / Q ≤ (1 + u) * P / ((1 - u) * ((1 - u) * T) ^ 2) := div_le_div₀ (by positivity) ah (by positivity) Ql
    have q2 : (1 + u) * ((1 + u) * P / ((1 - u) * ((1 - u) * T) ^ 2)) ≤ (1 + 8 * u) * (P / T ^ 2) := by
      rw [mul_div_assoc', mul_div_assoc', div_le_div_iff₀ (by positivity) (by positivity)]
      have k : (1 + u) ^ 2 ≤ (1 + 8 * u) * (1 - u) ^ 3 := by
        have : 0 ≤ u * (3 - 22 * u + 23 * u ^ 2 - 8 * u ^ 3) := by
          refine mul_nonneg hu.le ?_
          nlinarith only [hu, hu8, pow_pos hu 2, mul_pos hu (sub_pos.2 (show u < 1 by linarith)), mul_pos (pow_pos hu 2) (sub_pos.2 (show u < 1 by linarith))]
        nlinarith only [this]
      have := mul_le_mul_of_nonneg_right k hPT.le
      nlinarith only [this]
    have := mul_le_mul_of_nonneg_left q (show (0 : ℝ) ≤ 1 + u by linarith)
    linarith

/-- The chirp mass of the round trip is finite, and the total mass that goes with it is of the right size. -/
lemma chirp_total (hF : F.WF) (lib : PowLib F) {m1 m2 eta : ℝ} (h : InRange F m1 m2)
    (he : etaOf F (.fin m1) (.fin m2) = .fin eta) :
    ∃ Mc, ms_to_Mc_eta F lib (.fin m1) (.fin m2) = (.fin Mc, .fin eta) ∧ F.rd eta = eta ∧ F.minNormal ≤ eta ∧ eta ≤ 1 / 2
      ∧ Wide F (Mc / eta ^ ((3 : ℝ) / 5))
      ∧ ((1 - 2 * lib.eps - 3 * F.u) * ((m1 * m2) ^ ((3 : ℝ) / 5) / (m1 + m2) ^ ((1 : ℝ) / 5)) ≤ Mc
        ∧ Mc ≤ (1 + 3 * lib.eps + 7 * F.u) * ((m1 * m2) ^ ((3 : ℝ) / 5) / (m1 + m2) ^ ((1 : ℝ) / 5)))
      ∧ ((1 - 5 * F.u) * (m1 * m2 / (m1 + m2) ^ 2) ≤ eta ∧ eta ≤ (1 + 8 * F.u) * (m1 * m2 / (m1 + m2) ^ 2)) := by
  obtain ⟨a, S, Q, e1, e2, e3, e4, hfa, hfS, -, ha, hS, hQ, ha0, hS0, hQ0, hna, hnS, hnQ, hmaxa, hmaxS, hmaxQ, h2aQ⟩ :=
    eta_steps hF h.pair
  have hp := hF.p1
  have hu := u_pos (F := F)
  have hu8 := hF.u_le
  have hn0 := minNormal_pos (F := F)
  have h2 := h.pos
  have h21 := h.le
  have h1 : 0 < m1 := h2.trans_le h21
  have hT : 0 < m1 + m2 := by linarith
  have hlow := h.low
  have ha' := abs_le.1 ha
  have hS' := abs_le.1 hS
  have hQ' := abs_le.1 hQ
  have hP0 : 0 < m1 * m2 := mul_pos h1 h2
  have hSS : 0 < S * S := mul_pos hS0 hS0
  have halo : 7 / 8 * (m1 * m2) ≤ a := by nlinarith only [ha'.1, hu8, hP0]
  have hSlo : 7 / 8 * (m1 + m2) ≤ S := by nlinarith only [hS'.1, hu8, hT]
  have hShi : S ≤ 9 / 8 * (m1 + m2) := by nlinarith only [hS'.2, hu8, hT]
  have hQlo : 7 / 8 * (S * S) ≤ Q := by nlinarith only [hQ'.1, hu8, hSS]
  have hQhi : Q ≤ 9 / 8 * (S * S) := by nlinarith only [hQ'.2, hu8, hSS]
  -- the mass ratio
  have hee : eta = F.rd (a / Q) := by rw [e4] at he; exact ((XR.fin.inj he)).symm
  have hm1S : m2 ≤ 4 * (a / S) := by
    rw [mul_div_assoc', le_div_iff₀ hS0]
    nlinarith only [halo, hShi, h21, h2, h1]
  have haS : 4 * F.minNormal ≤ a / S := by linarith
  have hq0 : 0 < a / Q := by positivity
  have hq : a / Q ≤ 1 / 2 := by rw [div_le_iff₀ hQ0]; linarith
  have hSShi : S * S ≤ 81 / 64 * (m1 + m2) ^ 2 := by nlinarith only [hShi, hS0, hT]
  have hqn : F.minNormal ≤ a / Q := by
    rw [le_div_iff₀ hQ0]
    have h3 := mul_le_mul_of_nonneg_left (hQhi.trans (mul_le_mul_of_nonneg_left hSShi (by norm_num))) hn0.le
    have h4 := h.ratio
    have h5 := mul_nonneg hn0.le (sq_nonneg (m1 + m2))
    linarith
  have herr := rnd_rel (F := F) (x := a / Q) (by rwa [abs_of_pos hq0])
  have hne := minNormal_le_rnd hp hqn
  rw [← rd_normal hp hqn, ← hee] at herr hne
  rw [abs_of_pos hq0] at herr
  have hetaerr := eta_err hu hu8 hP0 hT ha hS hQ herr
  have herr' := abs_le.1 herr
  have hef : F.rd eta = eta := by rw [hee]; exact rd_idem hp _
  have hehalf : eta ≤ 1 / 2 := by
    have h5 := rd_mono hp hq0.le hq
    have h6 := hF.float_pow (k := -1) (by norm_num; have := hF.min_le; linarith)
    norm_num at h6 h5
    rw [h6, ← hee] at h5; linarith
  have he0 : 0 < eta := hn0.trans_le hne
  have haQ : a = a / Q * Q := by field_simp
  have hes1 : eta * (S * S) ≤ 2 * a := by
    have h3 : eta ≤ 9 / 8 * (a / Q) := by nlinarith only [herr'.2, hu8, hq0]
    have h4 : eta * (7 / 8 * (S * S)) ≤ 9 / 8 * (a / Q) * Q := mul_le_mul h3 hQlo (by positivity) (by positivity)
    linarith
  have hes2 : a ≤ 2 * (eta * (S * S)) := by
    have h3 : 7 / 8 * (a / Q) ≤ eta := by nlinarith only [herr'.1, hu8, hq0]
    have h4 : 7 / 8 * (a / Q) * Q ≤ eta * (9 / 8 * (S * S)) := mul_le_mul h3 hQhi hQ0.le he0.le
    have := mul_pos he0 hSS
    linarith
  clear herr herr' hqn hq hq0 haQ hee
  -- the powers
  obtain ⟨r1, hr1, -, hr1e⟩ := lib.pow_pos a (3 / 5) (by rw [hfa]; exact rd_idem hp _) hna hmaxa (by norm_num) (by norm_num)
  obtain ⟨r2, hr2, -, hr2e⟩ := lib.pow_pos S (1 / 5) (by rw [hfS]; exact rd_idem hp _) hnS hmaxS (by norm_num) (by norm_num)
  have hA : 0 < a ^ ((3 : ℝ) / 5) := Real.rpow_pos_of_pos ha0 _
  have hB : 0 < S ^ ((1 : ℝ) / 5) := Real.rpow_pos_of_pos hS0 _
  have hy : 0 < eta ^ ((3 : ℝ) / 5) := Real.rpow_pos_of_pos he0 _
  have hy1 : eta ^ ((3 : ℝ) / 5) ≤ 1 := Real.rpow_le_one he0.le (by linarith) (by norm_num)
  have hpw : (eta * (S * S)) ^ ((3 : ℝ) / 5) = eta ^ ((3 : ℝ) / 5) * S * S ^ ((1 : ℝ) / 5) := by
    rw [Real.mul_rpow he0.le hSS.le, ← pow_two, ← Real.rpow_natCast, ← Real.rpow_mul hS0.le, mul_assoc]
    congr 1
    nth_rewrite 2 [← Real.rpow_one S]
    rw [← Real.rpow_add hS0]; norm_num
  have h2pow : (2 : ℝ) ^ ((3 : ℝ) / 5) ≤ 2 := by
    have := Real.rpow_le_rpow_of_exponent_le (x := 2) (by norm_num) (show (3 : ℝ) / 5 ≤ 1 by norm_num)
    rwa [Real.rpow_one] at this
  have hx1 : a ^ ((3 : ℝ) / 5) ≤ 2 * (eta ^ ((3 : ℝ) / 5) * S * S ^ ((1 : ℝ) / 5)) := by
    have := Real.rpow_le_rpow ha0.le hes2 (show (0 : ℝ) ≤ 3 / 5 by norm_num)
    rw [Real.mul_rpow (by norm_num) (mul_pos he0 hSS).le, hpw] at this
    exact this.trans (mul_le_mul_of_nonneg_right h2pow (by positivity))
  have hx2 : eta ^ ((3 : ℝ) / 5) * S * S ^ ((1 : ℝ) / 5) ≤ 2 * a ^ ((3 : ℝ) / 5) := by
    have := Real.rpow_le_rpow (mul_pos he0 hSS).le hes1 (show (0 : ℝ) ≤ 3 / 5 by norm_num)
    rw [Real.mul_rpow (by norm_num) ha0.le, hpw] at this
    exact this.trans (mul_le_mul_of_nonneg_right h2pow hA.le)
  have hx3 : a * S ^ ((1 : ℝ) / 5) ≤ a ^ ((3 : ℝ) / 5) * S := by
    have h3 : a ≤ S * S := by linarith
    have h4 := Real.rpow_le_rpow ha0.le h3 (show (0 : ℝ) ≤ 2 / 5 by norm_num)
    have h5 : (S * S) ^ ((2 : ℝ) / 5) * S ^ ((1 : ℝ) / 5) = S := by
      rw [← pow_two, ← Real.rpow_natCast, ← Real.rpow_mul hS0.le, ← Real.rpow_add hS0]; norm_num
    have h6 : a = a ^ ((3 : ℝ) / 5) * a ^ ((2 : ℝ) / 5) := by rw [← Real.rpow_add ha0]; norm_num
    calc a * S ^ ((1 : ℝ) / 5) = a ^ ((3 : ℝ) / 5) * (a ^ ((2 : ℝ) / 5) * S ^ ((1 : ℝ) / 5)) := by
          nth_rewrite 1 [h6]; ring
      _ ≤ a ^ ((3 : ℝ) / 5) * ((S * S) ^ ((2 : ℝ) / 5) * S ^ ((1 : ℝ) / 5)) :=
          mul_le_mul_of_nonneg_left (mul_le_mul_of_nonneg_right h4 hB.le) hA.le
      _ = _ := by rw [h5]
  have hpA := rpow_pert (q := 3 / 5) (d := F.u) (e := F.u) hP0 (by norm_num) (by norm_num) hu.le (by linarith) hu.le
    (show (1 - F.u) * (m1 * m2) ≤ a by linarith [ha'.1]) (by linarith [ha'.2])
  have hpB := rpow_pert (q := 1 / 5) (d := F.u) (e := F.u) hT (by norm_num) (by norm_num) hu.le (by linarith) hu.le
    (show (1 - F.u) * (m1 + m2) ≤ S by linarith [hS'.1]) (by linarith [hS'.2])
  have hXp : 0 < (m1 * m2) ^ ((3 : ℝ) / 5) := Real.rpow_pos_of_pos hP0 _
  have hYp : 0 < (m1 + m2) ^ ((1 : ℝ) / 5) := Real.rpow_pos_of_pos hT _
  have hle := lib.eps_le
  have hle0 := lib.eps_nonneg
  have hms : ms_to_Mc_eta F lib (.fin m1) (.fin m2) = (F.div (.fin r1) (.fin r2), .fin eta) := by
    unfold ms_to_Mc_eta; rw [e1, e2, hr1, hr2, he]
  rw [hms]
  clear hfa hfS hms hpw h2pow hes1 hes2 e1 e2 e3 e4 he hr1 hr2 ha' hS' hQ'
  generalize a ^ ((3 : ℝ) / 5) = A at *
  generalize S ^ ((1 : ℝ) / 5) = B at *
  generalize eta ^ ((3 : ℝ) / 5) = y at *
  generalize lib.eps = e at *
  have hr1' := abs_le.1 hr1e
  have hr2' := abs_le.1 hr2e
  have hAe : e * A ≤ 1 / 4 * A := mul_le_mul_of_nonneg_right hle hA.le
  have hBe : e * B ≤ 1 / 4 * B := mul_le_mul_of_nonneg_right hle hB.le
  have hr10 : 0 < r1 := by linarith [hr1'.1]
  have hr20 : 0 < r2 := by linarith [hr2'.1]
  have hQ1 : 3 / 5 * (A / B) ≤ r1 / r2 := by
    rw [mul_div_assoc', div_le_div_iff₀ hB hr20]
    have h3 : r2 ≤ 5 / 4 * B := by linarith [hr2'.2]
    have h4 : 3 / 4 * A ≤ r1 := by linarith [hr1'.1]
    have h5 := mul_le_mul_of_nonneg_left h3 (show (0 : ℝ) ≤ 3 / 5 * A by positivity)
    have h6 := mul_le_mul_of_nonneg_right h4 hB.le
    linarith
  have hQ2 : r1 / r2 ≤ 5 / 3 * (A / B) := by
    rw [mul_div_assoc', div_le_div_iff₀ hr20 hB]
    have h3 : 3 / 4 * B ≤ r2 := by linarith [hr2'.1]
    have h4 : r1 ≤ 5 / 4 * A := by linarith [hr1'.2]
    have h5 := mul_le_mul_of_nonneg_left h3 (show (0 : ℝ) ≤ 5 / 3 * A by positivity)
    have h6 := mul_le_mul_of_nonneg_right h4 hB.le
    linarith
  have hAB : a / S ≤ A / B := by rw [div_le_div_iff₀ hS0 hB]; exact hx3
  have hABu : A / B ≤ 2 * (y * S) := by rw [div_le_iff₀ hB]; linarith
  have hABl : y * S ≤ 2 * (A / B) := by rw [mul_div_assoc', le_div_iff₀ hB]; exact hx2
  have hQn : F.minNormal ≤ r1 / r2 := by linarith
  have hQp : 0 < r1 / r2 := hn0.trans_le hQn
  have hdiv : F.rd (r1 / r2) < 2 ^ F.emax → F.div (.fin r1) (.fin r2) = .fin (F.rd (r1 / r2)) := div_fin hr20.ne' hQp.le
  have hrel := rnd_rel (F := F) (x := r1 / r2) (by rwa [abs_of_pos hQp])
  rw [← rd_normal hp hQn, abs_of_pos hQp] at hrel
  have hrel' := abs_le.1 hrel
  have huQ : F.u * (r1 / r2) ≤ 1 / 8 * (r1 / r2) := mul_le_mul_of_nonneg_right hu8 hQp.le
  have hyS : 0 < y * S := mul_pos hy hS0
  have hyS1 : y * S ≤ S := by nlinarith only [hy1, hS0]
  have hMlo : 21 / 80 * (y * S) ≤ F.rd (r1 / r2) := by linarith [hrel'.1]
  have hMhi : F.rd (r1 / r2) ≤ 15 / 4 * (y * S) := by linarith [hrel'.2]
  have hmax : F.rd (r1 / r2) < 2 ^ F.emax := by
    have hh := h.high
    rcases le_or_gt (m1 + m2) 1 with hc | hc
    · have := hF.max_ge; linarith
    · have : m1 + m2 ≤ (m1 + m2) ^ 2 := by nlinarith only [hc]
      linarith
  refine ⟨_, by rw [hdiv hmax], hef, hne, hehalf, ?_,
    chirp_err hu hu8 hle0 hle hXp hYp hpA.1 hpA.2 hpB.1 hpB.2 hr1e hr2e hrel, hetaerr⟩
  have w1 : 21 / 80 * S ≤ F.rd (r1 / r2) / y := by rw [le_div_iff₀ hy]; linarith
  have w2 : F.rd (r1 / r2) / y ≤ 15 / 4 * S := by rw [div_le_iff₀ hy]; linarith
  have w0 : 0 < F.rd (r1 / r2) / y := by linarith
  have w3 : (21 / 80 * (7 / 8 * (m1 + m2))) ^ 2 ≤ (F.rd (r1 / r2) / y) ^ 2 :=
    pow_le_pow_left₀ (by positivity) (by linarith) 2
  have w4 : (F.rd (r1 / r2) / y) ^ 2 ≤ (15 / 4 * (9 / 8 * (m1 + m2))) ^ 2 := pow_le_pow_left₀ w0.le (by linarith) 2
  refine ⟨w0, ?_, ?_⟩
  · have := mul_le_mul_of_nonneg_left w3 hu.le
    have := h.sq
    linarith
  · have := h.high; have := sq_nonneg (m1 + m2); linarith

lemma round_trip_nan (hF : F.WF) (lib : PowLib F) {m1 m2 eta : ℝ} (h : InRange F m1 m2)
    (he : etaOf F (.fin m1) (.fin m2) = .fin eta) (hq : 1 / 4 < eta) :
    Mc_eta_to_ms F lib (ms_to_Mc_eta F lib (.fin m1) (.fin m2)).1 (ms_to_Mc_eta F lib (.fin m1) (.fin m2)).2
      = (.nan, .nan) := by
  obtain ⟨Mc, h1, h2, h3, h4, h5, -⟩ := chirp_total hF lib h he
  obtain ⟨M, hMe, -, hMs, -⟩ := total_mass hF lib h2 h3 (by have := hF.max_ge; linarith) h5
  rw [h1]
  unfold Mc_eta_to_ms
  simp only [hMe, core_nan hF hMs h2 hq, sub_nan, nan_div]

lemma sum_err {u e T M' M : ℝ} (hu : 0 < u) (hu8 : u ≤ 1 / 8) (he : 0 ≤ e) (he4 : e ≤ 1 / 4) (hT : 0 < T)
    (h1 : (1 - 2 * e - 11 * u) * T ≤ M') (h2 : M' ≤ (1 + 8 * e + 32 * u) * T) (hM : |M - M'| ≤ (2 * e + 2 * u) * M') :
    |M - T| ≤ (22 * e + 46 * u) * T := by
  have hM7 : M' ≤ 7 * T := by
    have : (1 + 8 * e + 32 * u) * T ≤ 7 * T := mul_le_mul_of_nonneg_right (by linarith) hT.le
    linarith
  have a1 : (2 * e + 2 * u) * M' ≤ (2 * e + 2 * u) * (7 * T) := mul_le_mul_of_nonneg_left hM7 (by linarith)
  have a2 := abs_le.1 hM
  have a3 := mul_nonneg he hT.le
  have a4 := mul_nonneg hu.le hT.le
  rw [abs_le]
  constructor <;> nlinarith only [a1, a2.1, a2.2, h1, h2, a3, a4]

lemma trip_err {u e T M' M r r' x1 x2 : ℝ} (hu : 0 < u) (hu8 : u ≤ 1 / 8) (he : 0 ≤ e) (he4 : e ≤ 1 / 4) (hT : 0 < T)
    (h1 : (1 - 2 * e - 11 * u) * T ≤ M') (h2 : M' ≤ (1 + 8 * e + 32 * u) * T) (hM : |M - M'| ≤ (2 * e + 2 * u) * M')
    (hr0 : 0 ≤ r) (hr'0 : 0 ≤ r') (hr'1 : r' ≤ 1) (hr : |r' ^ 2 - r ^ 2| ≤ 8 * u)
    (hx2 : |x2 - M * (1 - r') / 2| ≤ 3 * Real.sqrt u * M) (hx1 : |x1 - M * (1 + r') / 2| ≤ 3 * Real.sqrt u * M) :
    |x1 - T * (1 + r) / 2| ≤ (22 * e + 55 * Real.sqrt u) * T ∧ |x2 - T * (1 - r) / 2| ≤ (22 * e + 55 * Real.sqrt u) * T := by
  have hw0 : 0 ≤ Real.sqrt u := Real.sqrt_nonneg _
  have hw2 : Real.sqrt u * Real.sqrt u = u := Real.mul_self_sqrt hu.le
  generalize Real.sqrt u = w at *
  have hw1 : w ≤ 0.3536 := by
    by_contra hc
    push Not at hc
    nlinarith only [hc, hw2, hu8]
  have huw : u ≤ 0.3536 * w := by rw [← hw2]; exact mul_le_mul_of_nonneg_right hw1 hw0
  have hMT := sum_err hu hu8 he he4 hT h1 h2 hM
  have hMu : M ≤ 12.25 * T := by
    have a1 : (22 * e + 46 * u) * T ≤ 11.25 * T := mul_le_mul_of_nonneg_right (by linarith) hT.le
    have := (abs_le.1 hMT).2
    linarith
  have hrr : |r' - r| ≤ 3 * w := by
    refine abs_le_of_sq_le_sq (b := 3 * w) ?_ (by linarith)
    have e1 : |r' ^ 2 - r ^ 2| = |r' - r| * (r' + r) := by
      rw [show r' ^ 2 - r ^ 2 = (r' - r) * (r' + r) by ring, abs_mul, abs_of_nonneg (show 0 ≤ r' + r by linarith)]
    have e2 : |r' - r| ≤ r' + r := by rw [abs_le]; constructor <;> linarith
    have e3 : (r' - r) ^ 2 ≤ |r' - r| * (r' + r) := by
      rw [← sq_abs, pow_two]; exact mul_le_mul_of_nonneg_left e2 (abs_nonneg _)
    nlinarith only [e1, e3, hr, hw2, hu]
  have k0 : 3 * w * M ≤ 36.75 * w * T := by
    have := mul_le_mul_of_nonneg_left hMu (show 0 ≤ 3 * w by linarith); linarith
  have k1 : |T * (r' - r)| ≤ 3 * w * T := by
    rw [abs_mul, abs_of_pos hT, mul_comm]; exact mul_le_mul_of_nonneg_right hrr hT.le
  have k2 : |(M - T) * (1 + r')| ≤ 2 * ((22 * e + 46 * u) * T) := by
    rw [abs_mul, abs_of_nonneg (show 0 ≤ 1 + r' by linarith), mul_comm]
    exact mul_le_mul (by linarith) hMT (abs_nonneg _) (by norm_num)
  have k3 : |(M - T) * (1 - r')| ≤ (22 * e + 46 * u) * T := by
    rw [abs_mul, abs_of_nonneg (show 0 ≤ 1 - r' by linarith)]
    exact (mul_le_of_le_one_right (abs_nonneg _) (by linarith)).trans hMT
  have k4 : 46 * u * T ≤ 46 * (0.3536 * w) * T := by
    have := mul_le_mul_of_nonneg_right huw hT.le; linarith
  have k5 := mul_nonneg hw0 hT.le
  have k6 := mul_nonneg he hT.le
  rw [abs_le] at k1 k2 k3 hx1 hx2
  refine ⟨abs_le.2 ⟨?_, ?_⟩, abs_le.2 ⟨?_, ?_⟩⟩ <;> nlinarith only [k0, k1.1, k1.2, k2.1, k2.2, k3.1, k3.2, k4, k5, k6, hx1.1, hx1.2, hx2.1, hx2.2]

lemma round_trip_fin (hF : F.WF) (lib : PowLib F) {m1 m2 eta : ℝ} (h : InRange F m1 m2)
    (he : etaOf F (.fin m1) (.fin m2) = .fin eta) (hq : eta ≤ 1 / 4) :
    ∃ x1 x2 : ℝ, Mc_eta_to_ms F lib (ms_to_Mc_eta F lib (.fin m1) (.fin m2)).1 (ms_to_Mc_eta F lib (.fin m1) (.fin m2)).2
      = (.fin x1, .fin x2) ∧ 0 ≤ x2 ∧ x2 ≤ x1 ∧ (eta = 1 / 4 → x1 = x2)
      ∧ |x1 - m1| ≤ (22 * lib.eps + 55 * Real.sqrt F.u) * (m1 + m2)
      ∧ |x2 - m2| ≤ (22 * lib.eps + 55 * Real.sqrt F.u) * (m1 + m2)
      ∧ (eta = 1 / 4 → |x2 - (m1 + m2) / 2| ≤ (11 * lib.eps + 23 * F.u) * (m1 + m2)) := by
  obtain ⟨Mc, h1, h2, h3, h4, h5, ⟨c1, c2⟩, d1, d2⟩ := chirp_total hF lib h he
  obtain ⟨M, hMe, hMf, hMs, hMd⟩ := total_mass hF lib h2 h3 (by have := hF.max_ge; linarith) h5
  obtain ⟨x1, x2, a1, a2, a3, a4, a5, -, a6, b2, b1, -⟩ := core hF hMs hMf (minNormal_pos.le.trans h3) hq
  have hu := u_pos (F := F)
  have hu8 := hF.u_le
  have he0 := lib.eps_nonneg
  have he4 := lib.eps_le
  have p2 := h.pos
  have p1 : 0 < m1 := p2.trans_le h.le
  have hT : 0 < m1 + m2 := by linarith
  have hb : Binary ((m1 * m2) ^ ((3 : ℝ) / 5) / (m1 + m2) ^ ((1 : ℝ) / 5)) (m1 * m2 / (m1 + m2) ^ 2) m1 m2 :=
    ⟨p2, h.le, rfl, rfl⟩
  have ht := hb.total
  have hrt := hb.root
  have hqq := hb.eta_le
  have hn : 0 < m1 * m2 / (m1 + m2) ^ 2 := by positivity
  have hpw := rpow_pert (q := 3 / 5) hn (by norm_num) (by norm_num) (show 0 ≤ 5 * F.u by linarith) (by linarith)
    (show 0 ≤ 8 * F.u by linarith) d1 d2
  have he0' : 0 < eta := minNormal_pos.trans_le h3
  have hy : 0 < eta ^ ((3 : ℝ) / 5) := Real.rpow_pos_of_pos he0' _
  have hY : 0 < (m1 * m2 / (m1 + m2) ^ 2) ^ ((3 : ℝ) / 5) := Real.rpow_pos_of_pos hn _
  rw [div_eq_iff hY.ne'] at ht
  rw [ht] at c1 c2
  have t1 : (1 - 2 * lib.eps - 11 * F.u) * (m1 + m2) ≤ Mc / eta ^ ((3 : ℝ) / 5) := by
    rcases le_or_gt (1 - 2 * lib.eps - 11 * F.u) 0 with hneg | hpos
    · have := h5.pos; nlinarith only [this, hneg, hT]
    rw [le_div_iff₀ hy]
    refine le_trans ?_ c1
    calc (1 - 2 * lib.eps - 11 * F.u) * (m1 + m2) * eta ^ ((3 : ℝ) / 5)
        ≤ (1 - 2 * lib.eps - 11 * F.u) * (m1 + m2) * ((1 + 8 * F.u) * (m1 * m2 / (m1 + m2) ^ 2) ^ ((3 : ℝ) / 5)) :=
          mul_le_mul_of_nonneg_left hpw.2 (mul_pos hpos hT).le
      _ = (1 - 2 * lib.eps - 11 * F.u) * (1 + 8 * F.u) * ((m1 + m2) * (m1 * m2 / (m1 + m2) ^ 2) ^ ((3 : ℝ) / 5)) := by ring
      _ ≤ _ := mul_le_mul_of_nonneg_right (by nlinarith only [hu, he0, mul_nonneg he0 hu.le, mul_pos hu hu]) (mul_pos hT hY).le
  have t2 : Mc / eta ^ ((3 : ℝ) / 5) ≤ (1 + 8 * lib.eps + 32 * F.u) * (m1 + m2) := by
    rw [div_le_iff₀ hy]
    refine c2.trans ?_
    calc _ ≤ (1 + 8 * lib.eps + 32 * F.u) * (1 - 5 * F.u) * ((m1 + m2) * (m1 * m2 / (m1 + m2) ^ 2) ^ ((3 : ℝ) / 5)) :=
          mul_le_mul_of_nonneg_right (by
            have := mul_nonneg (show 0 ≤ 5 * lib.eps + 20 * F.u by linarith) (show 0 ≤ 1 - 8 * F.u by linarith)
            nlinarith only [this]) (mul_pos hT hY).le
      _ = (1 + 8 * lib.eps + 32 * F.u) * (m1 + m2) * ((1 - 5 * F.u) * (m1 * m2 / (m1 + m2) ^ 2) ^ ((3 : ℝ) / 5)) := by ring
      _ ≤ _ := mul_le_mul_of_nonneg_left hpw.1 (by positivity)
  have hr2 : Real.sqrt (1 - 4 * eta) ^ 2 = 1 - 4 * eta := Real.sq_sqrt (by linarith)
  have hR2 : Real.sqrt (1 - 4 * (m1 * m2 / (m1 + m2) ^ 2)) ^ 2 = 1 - 4 * (m1 * m2 / (m1 + m2) ^ 2) := Real.sq_sqrt (by linarith)
  have key := trip_err (r := Real.sqrt (1 - 4 * (m1 * m2 / (m1 + m2) ^ 2))) hu hu8 he0 he4 hT t1 t2 hMd (Real.sqrt_nonneg _)
    (Real.sqrt_nonneg _) (Real.sqrt_le_one.2 (by linarith)) (by
      rw [hr2, hR2]
      have a7 : F.u * (m1 * m2 / (m1 + m2) ^ 2) ≤ F.u * (1 / 4) := mul_le_mul_of_nonneg_left hqq hu.le
      rw [abs_le]; constructor <;> nlinarith only [a7, d1, d2, hu]) b2 b1
  rw [hrt] at key
  have g1 : (m1 + m2) * (1 + (m1 - m2) / (m1 + m2)) / 2 = m1 := by field_simp; ring
  have g2 : (m1 + m2) * (1 - (m1 - m2) / (m1 + m2)) / 2 = m2 := by field_simp; ring
  rw [g1, g2] at key
  refine ⟨x1, x2, ?_, a3, a4.trans a5, fun h => by rw [(a6 h).1, (a6 h).2], key.1, key.2, fun h => ?_⟩
  swap
  · have := abs_le.1 (sum_err hu hu8 he0 he4 hT t1 t2 hMd)
    rw [(a6 h).2, abs_le]
    constructor <;> linarith
  rw [h1]
  unfold Mc_eta_to_ms
  simp only [hMe, a1, a2]

/-- the square root of the waveform models and of the tidal conversions -/
lemma root_nan (hF : F.WF) {eta : ℝ} (h : F.rd eta = eta) (hq : 1 / 4 < eta) (hq' : eta ≤ 1 / 2) :
    ∃ x : ℝ, x < 0 ∧ F.sub (.fin 1) (F.mul (.fin 4) (.fin eta)) = .fin x := by
  have hp := hF.p1
  have hu := u_pos (F := F)
  have hu8 := hF.u_le
  have hmu := hF.min_le_u
  have hn0 := minNormal_pos (F := F)
  have hmax := hF.max_ge
  have r4 : F.rd (4 * eta) = 4 * eta := by
    have := rd_scale_up 2 hp h (by have := hF.min_le; linarith); norm_num at this; exact this
  rw [mul_fin (by linarith) (by rw [r4]; linarith), r4]
  have h1 := above_quarter hF h hq
  have hneg : 1 - 4 * eta ≤ -(2 * F.u) := by linarith
  have habs : |1 - 4 * eta| = -(1 - 4 * eta) := abs_of_nonpos (by linarith)
  have hrel := rnd_rel (F := F) (x := 1 - 4 * eta) (by rw [habs]; linarith)
  rw [habs] at hrel
  have hrel' := abs_le.1 hrel
  have hb : F.u * -(1 - 4 * eta) ≤ 1 / 8 * -(1 - 4 * eta) := mul_le_mul_of_nonneg_right hu8 (by linarith)
  have hrn : F.rnd (1 - 4 * eta) ≤ -F.minNormal := by linarith [hrel'.2]
  have hrd : F.rd (1 - 4 * eta) = F.rnd (1 - 4 * eta) := by
    unfold Fmt.rd; rw [if_neg]; rintro ⟨-, h2⟩; rw [abs_of_nonpos (by linarith)] at h2; linarith
  refine ⟨F.rnd (1 - 4 * eta), by linarith, ?_⟩
  unfold Fmt.sub
  rw [XR.sub_fin]
  show F.ofReal _ = _
  unfold Fmt.ofReal
  rw [hrd, if_neg (by linarith), if_neg (by linarith [hrel'.1])]

lemma tides_nan (hF : F.WF) (lib : PowLib F) {m1 m2 eta : ℝ} (h : InRange F m1 m2)
    (he : etaOf F (.fin m1) (.fin m2) = .fin eta) (hq : 1 / 4 < eta) (l1 l2 : XR) :
    lambdas_to_lambda_tildes F lib l1 l2 (.fin m1) (.fin m2) = (.nan, .nan) := by
  obtain ⟨Mc, h1, h2, h3, h4, -⟩ := chirp_total hF lib h he
  obtain ⟨x, hx, hr⟩ := root_nan hF h2 hq h4
  unfold lambdas_to_lambda_tildes
  simp only [h1, hr, lib.pow_neg _ _ hx, nan_mul, add_nan, mul_nan, nan_add]

end
end Fp
end Ripple

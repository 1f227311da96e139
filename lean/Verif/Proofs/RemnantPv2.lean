/-
  Range of the precessing remnant spin of PhenomPv2.
-/
import Verif.Proofs.Remnant
import Verif.Proofs.Pv2Gen

namespace Ripple
open PhenomD Pv2 V3

lemma sq_lt_of_between {a b x K : ℝ} (ha : a ^ 2 < K) (hb : b ^ 2 < K) (h1 : a ≤ x) (h2 : x ≤ b) : x ^ 2 < K := by
  rcases le_total 0 x with h | h
  · nlinarith
  · nlinarith

/-- in-plane spin bounded by the heavier body's -/
lemma remnant_heavier {p q c z : ℝ} (hp : 0 < p) (hp' : p ≤ 1 / 2) (hq : q = 1 - p) (hc : -1 ≤ c ∧ c ≤ 1)
    (hz : -1 ≤ z ∧ z ≤ 1) :
    (q ^ 2 * c + p ^ 2 * z + p * q * spinR (p * q) (q ^ 2 * c + p ^ 2 * z)) ^ 2 < 1 - q ^ 4 * (1 - c ^ 2) := by
  have qp : 0 < q := by linarith
  have he : 0 ≤ p * q := by positivity
  have he' : p * q ≤ 1 / 4 := by rw [hq]; nlinarith [sq_nonneg (1 - 2 * p)]
  have hpq : 1 - 2 * (p * q) = q ^ 2 + p ^ 2 := by rw [hq]; ring
  have b : ∀ w, -1 ≤ w ∧ w ≤ 1 → |q ^ 2 * c + p ^ 2 * w| ≤ 1 - 2 * (p * q) := by
    rintro w ⟨w1, w2⟩
    obtain ⟨c1, c2⟩ := hc
    rw [hpq, abs_le]
    constructor <;> nlinarith [sq_nonneg p, sq_nonneg q]
  have m1 := spin_mono he he' (b (-1) (by norm_num)) (b z hz) (by nlinarith [sq_nonneg p, hz.1])
  have m2 := spin_mono he he' (b z hz) (b 1 (by norm_num)) (by nlinarith [sq_nonneg p, hz.2])
  have ia := inplane1a p q (p * q) c _ _ ⟨hp.le, by linarith⟩ hc hq rfl rfl rfl
  have ib := inplane1b p q (p * q) c _ _ ⟨hp.le, by linarith⟩ hc hq rfl rfl rfl
  rw [mul_neg_one, ← sub_eq_add_neg] at m1
  rw [mul_one] at m2
  refine sq_lt_of_between ?_ ?_ m1 m2
  · generalize spinR (p * q) (q ^ 2 * c - p ^ 2) = R at *
    have := mul_pos hp ib
    have e : 1 - q ^ 4 * (1 - c ^ 2) - (q ^ 2 * c - p ^ 2 + p * q * R) ^ 2 = p * ((1 + q) * (1 + q ^ 2) + 2 * q ^ 2 * p * c -
        p ^ 3 - R * q * (2 * (q ^ 2 * c - p ^ 2) + p * q * R)) := by rw [hq]; ring
    linarith
  · generalize spinR (p * q) (q ^ 2 * c + p ^ 2) = R at *
    have := mul_pos hp ia
    have e : 1 - q ^ 4 * (1 - c ^ 2) - (q ^ 2 * c + p ^ 2 + p * q * R) ^ 2 = p * ((1 + q) * (1 + q ^ 2) - 2 * q ^ 2 * p * c -
        p ^ 3 - R * q * (2 * (q ^ 2 * c + p ^ 2) + p * q * R)) := by rw [hq]; ring
    linarith

/-- in-plane spin bounded by the lighter body's -/
lemma remnant_lighter {p q c z k : ℝ} (hp : 0 < p) (hp' : p ≤ 1 / 2) (hq : q = 1 - p) (hc : -1 ≤ c ∧ c ≤ 1)
    (hz : -1 ≤ z ∧ z ≤ 1) (hk : k = (4 * p + 3 * q) / (4 * q + 3 * p)) :
    (q ^ 2 * c + p ^ 2 * z + p * q * spinR (p * q) (q ^ 2 * c + p ^ 2 * z)) ^ 2 < 1 - p ^ 2 * q ^ 2 * k ^ 2 * (1 - z ^ 2) := by
  have qp : 0 < q := by linarith
  have he : 0 ≤ p * q := by positivity
  have he' : p * q ≤ 1 / 4 := by rw [hq]; nlinarith [sq_nonneg (1 - 2 * p)]
  have hpq : 1 - 2 * (p * q) = q ^ 2 + p ^ 2 := by rw [hq]; ring
  have b : ∀ w, -1 ≤ w ∧ w ≤ 1 → |q ^ 2 * w + p ^ 2 * z| ≤ 1 - 2 * (p * q) := by
    rintro w ⟨w1, w2⟩
    obtain ⟨c1, c2⟩ := hz
    rw [hpq, abs_le]
    constructor <;> nlinarith [sq_nonneg p, sq_nonneg q]
  have m1 := spin_mono he he' (b (-1) (by norm_num)) (b c hc) (by nlinarith [sq_nonneg q, hc.1])
  have m2 := spin_mono he he' (b c hc) (b 1 (by norm_num)) (by nlinarith [sq_nonneg q, hc.2])
  have ia := inplane2a p q (p * q) z k _ _ ⟨hp.le, by linarith⟩ hz hq rfl hk rfl rfl
  have ib := inplane2b p q (p * q) z k _ _ ⟨hp.le, by linarith⟩ hz hq rfl hk rfl rfl
  rw [mul_neg_one] at m1
  rw [mul_one] at m2
  refine sq_lt_of_between ?_ ?_ m1 m2
  · generalize spinR (p * q) (-q ^ 2 + p ^ 2 * z) = R at *
    have := mul_pos hp ib
    have e : 1 - p ^ 2 * q ^ 2 * k ^ 2 * (1 - z ^ 2) - (-q ^ 2 + p ^ 2 * z + p * q * R) ^ 2 =
        p * ((1 - (-q ^ 2 + p ^ 2 * z) - p * q * R) * (1 + q + p * z + q * R) - p * q ^ 2 * k ^ 2 * (1 - z ^ 2)) := by
      rw [hq]; ring
    linarith
  · generalize spinR (p * q) (q ^ 2 + p ^ 2 * z) = R at *
    have := mul_pos hp ia
    have e : 1 - p ^ 2 * q ^ 2 * k ^ 2 * (1 - z ^ 2) - (q ^ 2 + p ^ 2 * z + p * q * R) ^ 2 =
        p * ((1 + (q ^ 2 + p ^ 2 * z) + p * q * R) * (1 + q - p * z - q * R) - p * q ^ 2 * k ^ 2 * (1 - z ^ 2)) := by
      rw [hq]; ring
    linarith

lemma finalSpin0815_eq {m1 m2 : ℝ} (h2 : 0 < m2) (h : m2 ≤ m1) (a b : ℝ) :
    FinalSpin0815 (m1 * m2 / ((m1 + m2) * (m1 + m2))) a b =
      (m1 / (m1 + m2)) ^ 2 * a + (m2 / (m1 + m2)) ^ 2 * b +
        m2 / (m1 + m2) * (m1 / (m1 + m2)) * spinR (m2 / (m1 + m2) * (m1 / (m1 + m2)))
          ((m1 / (m1 + m2)) ^ 2 * a + (m2 / (m1 + m2)) ^ 2 * b) := by
  have h1 : 0 < m1 := lt_of_lt_of_le h2 h
  have hs : Real.sqrt (1 - 4 * (m1 * m2 / ((m1 + m2) * (m1 + m2)))) = (m1 - m2) / (m1 + m2) := by
    rw [show 1 - 4 * (m1 * m2 / ((m1 + m2) * (m1 + m2))) = ((m1 - m2) / (m1 + m2)) ^ 2 by field_simp; ring]
    exact Real.sqrt_sq (div_nonneg (by linarith) (by linarith))
  have e1 : 0.5 * (1 + (m1 - m2) / (m1 + m2)) = m1 / (m1 + m2) := by field_simp; ring
  have e2 : 0.5 * (1 - (m1 - m2) / (m1 + m2)) = m2 / (m1 + m2) := by field_simp; ring
  have e3 : m1 * m2 / ((m1 + m2) * (m1 + m2)) = m2 / (m1 + m2) * (m1 / (m1 + m2)) := by field_simp
  unfold FinalSpin0815
  simp only [hs, e1, e2]
  rw [finalSpin_eq (by positivity), e3, ← sq, ← sq]

lemma perp_sq {s : V3} (hs : len s ≤ 1) : Real.sqrt (s.1 ^ 2 + s.2.1 ^ 2) ^ 2 ≤ 1 - s.2.2 ^ 2 := by
  rw [Real.sq_sqrt (by positivity)]
  have h0 : 0 ≤ V3.dot s s := by unfold V3.dot; nlinarith [mul_self_nonneg s.1, mul_self_nonneg s.2.1, mul_self_nonneg s.2.2]
  have : V3.dot s s ≤ 1 := by
    have hl : len s = Real.sqrt (V3.dot s s) := rfl
    rw [hl, Real.sqrt_le_one] at hs
    exact hs
  unfold V3.dot at this
  nlinarith

lemma z_le {s : V3} (hs : len s ≤ 1) : -1 ≤ s.2.2 ∧ s.2.2 ≤ 1 := by
  have := perp_sq hs
  have h2 : s.2.2 ^ 2 ≤ 1 := by nlinarith [sq_nonneg (Real.sqrt (s.1 ^ 2 + s.2.1 ^ 2))]
  exact abs_le.1 (by rwa [sq_le_one_iff_abs_le_one] at h2)

/-- the remnant spin of every precessing binary -/
lemma remnant_precessing {m1 m2 : ℝ} (h2 : 0 < m2) (h : m2 ≤ m1) {s1 s2 : V3} (hs1 : len s1 ≤ 1) (hs2 : len s2 ≤ 1)
    (f_ref phiRef incl : ℝ) :
    -1 < FinalSpin_inplane m1 m2 s1.2.2 s2.2.2 (conv m2 m1 f_ref phiRef incl s2 s1).chip ∧
      FinalSpin_inplane m1 m2 s1.2.2 s2.2.2 (conv m2 m1 f_ref phiRef incl s2 s1).chip < 1 := by
  have h1 : 0 < m1 := lt_of_lt_of_le h2 h
  have hM : 0 < m1 + m2 := by positivity
  set p := m2 / (m1 + m2) with hp
  set q := m1 / (m1 + m2) with hq
  have pp : 0 < p := by positivity
  have qp : 0 < q := by positivity
  have hpq : q = 1 - p := by rw [hp, hq]; field_simp; ring
  have hp' : p ≤ 1 / 2 := by rw [hp, div_le_iff₀ hM]; linarith
  have key : (q ^ 2 * (conv m2 m1 f_ref phiRef incl s2 s1).chip) ^ 2 +
      (FinalSpin0815 (m1 * m2 / ((m1 + m2) * (m1 + m2))) s1.2.2 s2.2.2) ^ 2 < 1 := by
    rw [finalSpin0815_eq h2 h, C57_value f_ref phiRef incl s2 s1 h2 h1]
    simp only [← hp, ← hq]
    have a1 := remnant_heavier pp hp' hpq (z_le hs1) (z_le hs2)
    have a2 := remnant_lighter pp hp' hpq (z_le hs1) (z_le hs2) rfl
    rcases max_choice ((4 * m2 + 3 * m1) * m2 / ((4 * m1 + 3 * m2) * m1) * Real.sqrt (s2.1 ^ 2 + s2.2.1 ^ 2))
      (Real.sqrt (s1.1 ^ 2 + s1.2.1 ^ 2)) with hm | hm
    · rw [hm]
      have ek : q ^ 2 * ((4 * m2 + 3 * m1) * m2 / ((4 * m1 + 3 * m2) * m1) * Real.sqrt (s2.1 ^ 2 + s2.2.1 ^ 2)) =
          p * q * ((4 * p + 3 * q) / (4 * q + 3 * p)) * Real.sqrt (s2.1 ^ 2 + s2.2.1 ^ 2) := by
        rw [hp, hq]; field_simp
      rw [ek]
      have := perp_sq hs2
      have hh : (p * q * ((4 * p + 3 * q) / (4 * q + 3 * p)) * Real.sqrt (s2.1 ^ 2 + s2.2.1 ^ 2)) ^ 2 ≤
          p ^ 2 * q ^ 2 * ((4 * p + 3 * q) / (4 * q + 3 * p)) ^ 2 * (1 - s2.2.2 ^ 2) := by
        rw [mul_pow, mul_pow, mul_pow]
        exact mul_le_mul_of_nonneg_left this (by positivity)
      linarith
    · rw [hm]
      have := perp_sq hs1
      have hh : (q ^ 2 * Real.sqrt (s1.1 ^ 2 + s1.2.1 ^ 2)) ^ 2 ≤ q ^ 4 * (1 - s1.2.2 ^ 2) := by
        rw [mul_pow, show (q ^ 2) ^ 2 = q ^ 4 by ring]
        exact mul_le_mul_of_nonneg_left this (by positivity)
      linarith
  have hs : Real.sqrt ((q ^ 2 * (conv m2 m1 f_ref phiRef incl s2 s1).chip) ^ 2 +
      (FinalSpin0815 (m1 * m2 / ((m1 + m2) * (m1 + m2))) s1.2.2 s2.2.2) ^ 2) < 1 := by
    rw [Real.sqrt_lt' one_pos]; linarith
  have e : FinalSpin_inplane m1 m2 s1.2.2 s2.2.2 (conv m2 m1 f_ref phiRef incl s2 s1).chip =
      Jnp.copysign1 (FinalSpin0815 (m1 * m2 / ((m1 + m2) * (m1 + m2))) s1.2.2 s2.2.2) *
        Real.sqrt ((q ^ 2 * (conv m2 m1 f_ref phiRef incl s2 s1).chip) ^ 2 +
      (FinalSpin0815 (m1 * m2 / ((m1 + m2) * (m1 + m2))) s1.2.2 s2.2.2) ^ 2) := by
    unfold FinalSpin_inplane
    simp only
    congr 2
    rw [← hq]; ring
  rw [e]
  have s0 := Real.sqrt_nonneg ((q ^ 2 * (conv m2 m1 f_ref phiRef incl s2 s1).chip) ^ 2 +
      (FinalSpin0815 (m1 * m2 / ((m1 + m2) * (m1 + m2))) s1.2.2 s2.2.2) ^ 2)
  unfold Jnp.copysign1
  split_ifs <;> constructor <;> linarith

end Ripple

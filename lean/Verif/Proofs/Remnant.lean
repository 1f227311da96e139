/-
  Range of the remnant spin of PhenomD and PhenomPv2 over all physical binaries.
-/
import Verif.Model.PhenomPv2Utils
import Verif.Prelude.AffineTac
import Mathlib.Tactic.FieldSimp
import Mathlib.Tactic.Linarith

namespace Ripple
open PhenomD Pv2

/-- remnant spin = total spin + eta × this -/
noncomputable def spinR (e S : ℝ) : ℝ :=
  3.4641016151377544 - 4.399247300629289 * e + 9.397292189321194 * e ^ 2 - 13.180949901606242 * e ^ 3 +
    S * (-0.0850917821418767 - 5.837029316602263 * e + (0.1014665242971878 - 2.0967746996832157 * e) * S +
      (-1.3546806617824356 + 4.108962025369336 * e) * S ^ 2 + (-0.8676969352555539 + 2.064046835273906 * e) * S ^ 3)

lemma finalSpin_eq {e : ℝ} (he : e ≠ 0) (S : ℝ) : FinalSpin0815_s e S = S + e * spinR e S := by
  unfold FinalSpin0815_s spinR
  simp only
  field_simp
  ring

lemma spinR_hi (e S : ℝ) (he : 0 ≤ e ∧ e ≤ 0.25) (hS : -1 ≤ S ∧ S ≤ 1) : 0 < 2 - spinR e S ∨ 0 < 1 - S - e * spinR e S := by
  unfold spinR
  affine_bnb [he, hS] []

lemma spinR_lo (e S : ℝ) (he : 0 ≤ e ∧ e ≤ 0.25) (hS : -1 ≤ S ∧ S ≤ 1) : 0 < 2 + spinR e S ∨ 0 < 1 + S + e * spinR e S := by
  unfold spinR
  affine_bnb [he, hS] []

/-- remnant spin of an aligned-spin binary -/
lemma finalSpin_range {e S : ℝ} (he : 0 < e) (he' : e ≤ 1 / 4) (hS : |S| ≤ 1 - 2 * e) :
    -1 < FinalSpin0815_s e S ∧ FinalSpin0815_s e S < 1 := by
  obtain ⟨s1, s2⟩ := abs_le.1 hS
  rw [finalSpin_eq he.ne']
  constructor
  · rcases spinR_lo e S ⟨he.le, by linarith⟩ ⟨by linarith, by linarith⟩ with h | h
    · nlinarith [mul_pos he h]
    · linarith
  · rcases spinR_hi e S ⟨he.le, by linarith⟩ ⟨by linarith, by linarith⟩ with h | h
    · nlinarith [mul_pos he h]
    · linarith

/-- difference quotient of `spinR` in the spin -/
noncomputable def spinDQ (e S T : ℝ) : ℝ :=
  -0.0850917821418767 - 5.837029316602263 * e + (0.1014665242971878 - 2.0967746996832157 * e) * (S + T) +
    (-1.3546806617824356 + 4.108962025369336 * e) * (S ^ 2 + S * T + T ^ 2) +
    (-0.8676969352555539 + 2.064046835273906 * e) * (S ^ 3 + S ^ 2 * T + S * T ^ 2 + T ^ 3)

lemma spinR_sub (e S T : ℝ) : spinR e T - spinR e S = (T - S) * spinDQ e S T := by
  unfold spinR spinDQ; ring

lemma spinDQ_pos (e x y S T : ℝ) (he : 0 ≤ e ∧ e ≤ 0.25) (hx : -1 ≤ x ∧ x ≤ 1) (hy : -1 ≤ y ∧ y ≤ 1)
    (hS : S = x * (1 - 2 * e)) (hT : T = y * (1 - 2 * e)) : 0 < 1 + e * spinDQ e S T := by
  unfold spinDQ
  affine_bnb [he, hx, hy] [hS, hT]

/-- the remnant spin increases with the total spin -/
lemma spin_strictMono {e S T : ℝ} (he : 0 ≤ e) (he' : e ≤ 1 / 4) (hS : |S| ≤ 1 - 2 * e) (hT : |T| ≤ 1 - 2 * e) (h : S < T) :
    S + e * spinR e S < T + e * spinR e T := by
  have hp : 0 < 1 - 2 * e := by linarith
  have r : ∀ U, |U| ≤ 1 - 2 * e → (-1 ≤ U / (1 - 2 * e) ∧ U / (1 - 2 * e) ≤ 1) ∧ U = U / (1 - 2 * e) * (1 - 2 * e) := by
    intro U hU
    obtain ⟨a, b⟩ := abs_le.1 hU
    refine ⟨⟨?_, ?_⟩, (div_mul_cancel₀ _ hp.ne').symm⟩
    · rw [le_div_iff₀ hp]; linarith
    · rw [div_le_iff₀ hp]; linarith
  have := spinDQ_pos e _ _ S T ⟨he, by linarith⟩ (r S hS).1 (r T hT).1 (r S hS).2 (r T hT).2
  have e1 := spinR_sub e S T
  nlinarith [mul_pos (sub_pos.2 h) this]

lemma spin_mono {e S T : ℝ} (he : 0 ≤ e) (he' : e ≤ 1 / 4) (hS : |S| ≤ 1 - 2 * e) (hT : |T| ≤ 1 - 2 * e) (h : S ≤ T) :
    S + e * spinR e S ≤ T + e * spinR e T := by
  rcases lt_or_eq_of_le h with h | rfl
  · exact (spin_strictMono he he' hS hT h).le
  · exact le_rfl

/-- Horner form -/
lemma spinR_horner (e S : ℝ) : spinR e S =
    3.4641016151377544 - e * (4.399247300629289 - e * (9.397292189321194 - 13.180949901606242 * e)) +
    S * (-0.0850917821418767 - 5.837029316602263 * e + S * (0.1014665242971878 - 2.0967746996832157 * e +
      S * (-1.3546806617824356 + 4.108962025369336 * e + S * (-0.8676969352555539 + 2.064046835273906 * e)))) := by
  unfold spinR; ring

/-- heavier body's in-plane spin (the box is cut so that the kernel check stays fast) -/
lemma inplane1a (p q e c S R : ℝ) (hp : 0 ≤ p ∧ p ≤ 0.5) (hc : -1 ≤ c ∧ c ≤ 1) (hq : q = 1 - p)
    (he : e = p * q) (hS : S = q ^ 2 * c + p ^ 2) (hR : R = spinR e S) :
    0 < (1 + q) * (1 + q ^ 2) - 2 * q ^ 2 * p * c - p ^ 3 - R * q * (2 * S + e * R) := by
  rw [spinR_horner] at hR
  rcases le_total c 0.6 with h1 | h1
  · have hc' : -1 ≤ c ∧ c ≤ 0.6 := ⟨hc.1, h1⟩
    affine_bnb [hp, hc'] [hq, he, hS, hR]
  rcases le_total c 0.7 with h2 | h2
  · have hc' : 0.6 ≤ c ∧ c ≤ 0.7 := ⟨h1, h2⟩
    affine_bnb [hp, hc'] [hq, he, hS, hR]
  rcases le_total c 0.74 with h3 | h3
  · have hc' : 0.7 ≤ c ∧ c ≤ 0.74 := ⟨h2, h3⟩
    affine_bnb [hp, hc'] [hq, he, hS, hR]
  rcases le_total c 0.78 with h4 | h4
  · have hc' : 0.74 ≤ c ∧ c ≤ 0.78 := ⟨h3, h4⟩
    affine_bnb [hp, hc'] [hq, he, hS, hR]
  rcases le_total c 0.85 with h5 | h5
  · have hc' : 0.78 ≤ c ∧ c ≤ 0.85 := ⟨h4, h5⟩
    affine_bnb [hp, hc'] [hq, he, hS, hR]
  · have hc' : 0.85 ≤ c ∧ c ≤ 1 := ⟨h5, hc.2⟩
    affine_bnb [hp, hc'] [hq, he, hS, hR]

lemma inplane1b (p q e c S R : ℝ) (hp : 0 ≤ p ∧ p ≤ 0.5) (hc : -1 ≤ c ∧ c ≤ 1) (hq : q = 1 - p)
    (he : e = p * q) (hS : S = q ^ 2 * c - p ^ 2) (hR : R = spinR e S) :
    0 < (1 + q) * (1 + q ^ 2) + 2 * q ^ 2 * p * c - p ^ 3 - R * q * (2 * S + e * R) := by
  rw [spinR_horner] at hR
  rcases le_total c 0.65 with h1 | h1
  · have hc' : -1 ≤ c ∧ c ≤ 0.65 := ⟨hc.1, h1⟩
    affine_bnb [hp, hc'] [hq, he, hS, hR]
  rcases le_total c 0.75 with h2 | h2
  · have hc' : 0.65 ≤ c ∧ c ≤ 0.75 := ⟨h1, h2⟩
    affine_bnb [hp, hc'] [hq, he, hS, hR]
  rcases le_total c 0.85 with h3 | h3
  · have hc' : 0.75 ≤ c ∧ c ≤ 0.85 := ⟨h2, h3⟩
    affine_bnb [hp, hc'] [hq, he, hS, hR]
  · have hc' : 0.85 ≤ c ∧ c ≤ 1 := ⟨h3, hc.2⟩
    affine_bnb [hp, hc'] [hq, he, hS, hR]

/-- lighter body's in-plane spin -/
lemma inplane2a (p q e z k S R : ℝ) (hp : 0 ≤ p ∧ p ≤ 0.5) (hz : -1 ≤ z ∧ z ≤ 1) (hq : q = 1 - p)
    (he : e = p * q) (hk : k = (4 * p + 3 * q) / (4 * q + 3 * p)) (hS : S = q ^ 2 + p ^ 2 * z) (hR : R = spinR e S) :
    0 < (1 + S + e * R) * (1 + q - p * z - q * R) - p * q ^ 2 * k ^ 2 * (1 - z ^ 2) := by
  rw [spinR_horner] at hR
  affine_bnb [hp, hz] [hq, he, hk, hS, hR]

lemma inplane2b (p q e z k S R : ℝ) (hp : 0 ≤ p ∧ p ≤ 0.5) (hz : -1 ≤ z ∧ z ≤ 1) (hq : q = 1 - p)
    (he : e = p * q) (hk : k = (4 * p + 3 * q) / (4 * q + 3 * p)) (hS : S = -q ^ 2 + p ^ 2 * z) (hR : R = spinR e S) :
    0 < (1 - S - e * R) * (1 + q + p * z + q * R) - p * q ^ 2 * k ^ 2 * (1 - z ^ 2) := by
  rw [spinR_horner] at hR
  affine_bnb [hp, hz] [hq, he, hk, hS, hR]

end Ripple

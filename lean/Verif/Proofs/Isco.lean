/-
  Helper lemmas about the ISCO radius of IMRPhenomX_utils: it is a root of the Kerr ISCO equation.
-/
import Verif.Model.PhenomXUtils
import Verif.Proofs.TaylorF2
import Mathlib.Analysis.SpecialFunctions.Pow.Real
import Mathlib.Analysis.Calculus.Deriv.MeanValue
import Mathlib.Analysis.SpecialFunctions.Sqrt

namespace Ripple
namespace XAS
open Real

/-- `Z1 - 1` -/
noncomputable def iscoS (a : ℝ) : ℝ := Jnp.cbrt (1 - a * a) * (Jnp.cbrt (1 + a) + Jnp.cbrt (1 - a))

lemma cube_rpow {x : ℝ} (hx : 0 ≤ x) : (x ^ ((1 : ℝ) / 3)) ^ 3 = x := by
  rw [← Real.rpow_natCast, ← Real.rpow_mul hx]; norm_num

lemma iscoS_spec {a : ℝ} (h1 : -1 ≤ a) (h2 : a ≤ 1) :
    0 ≤ iscoS a ∧ iscoS a ≤ 2 ∧ iscoS a ^ 3 = (1 - a ^ 2) * (2 + 3 * iscoS a) := by
  have ha : 0 ≤ 1 + a := by linarith
  have hb : 0 ≤ 1 - a := by linarith
  have hab : 1 - a * a = (1 + a) * (1 - a) := by ring
  have hab0 : 0 ≤ 1 - a * a := hab ▸ mul_nonneg ha hb
  unfold iscoS
  rw [Jnp.cbrt_of_nonneg ha, Jnp.cbrt_of_nonneg hb, Jnp.cbrt_of_nonneg hab0, hab, Real.mul_rpow ha hb]
  have hp := cube_rpow ha
  have hq := cube_rpow hb
  have hp0 : 0 ≤ (1 + a) ^ ((1 : ℝ) / 3) := Real.rpow_nonneg ha _
  have hq0 : 0 ≤ (1 - a) ^ ((1 : ℝ) / 3) := Real.rpow_nonneg hb _
  generalize (1 + a) ^ ((1 : ℝ) / 3) = p at *
  generalize (1 - a) ^ ((1 : ℝ) / 3) = q at *
  refine ⟨by positivity, ?_, ?_⟩
  · nlinarith [mul_nonneg (add_nonneg hp0 hq0) (sq_nonneg (p - q))]
  · have : 1 - a ^ 2 = p ^ 3 * q ^ 3 := by rw [hp, hq]; ring
    rw [this]
    have h2 : (2 : ℝ) = p ^ 3 + q ^ 3 := by rw [hp, hq]; ring
    rw [h2]
    ring

/-- the square root of the ISCO radius, in closed form -/
lemma rISCO_sqrt {a : ℝ} (h1 : -1 ≤ a) (h2 : a ≤ 1) :
    ∃ u A Z1 Z2 : ℝ, rISCOof a = u ^ 2 ∧ 0 < u ∧ 0 ≤ A ∧ (Real.sign a * A) ^ 2 = 2 * (3 - Z1) ∧ Z2 ^ 2 = 3 * a ^ 2 + Z1 ^ 2 ∧ 0 ≤ Z2 ∧
      A * Z2 = 4 * |a| ∧ u ^ 2 + Real.sign a * A * u = Z1 + Z2 ∧ Z1 = 1 + iscoS a := by
  obtain ⟨hs0, hs2, hs3⟩ := iscoS_spec h1 h2
  have hr : rISCOof a = 3 + sqrt (3 * (a * a) + (1 + iscoS a) * (1 + iscoS a)) - Real.sign a * sqrt ((3 - (1 + iscoS a)) *
      (3 + (1 + iscoS a) + 2 * sqrt (3 * (a * a) + (1 + iscoS a) * (1 + iscoS a)))) := by
    unfold rISCOof
    simp only []
    change (3 + sqrt (3 * (a * a) + (if 1 + iscoS a > 3 then 3 else 1 + iscoS a) * (if 1 + iscoS a > 3 then 3 else 1 + iscoS a)) -
      Real.sign a * sqrt ((3 - (if 1 + iscoS a > 3 then 3 else 1 + iscoS a)) * (3 + (if 1 + iscoS a > 3 then 3 else 1 + iscoS a)
      + 2 * sqrt (3 * (a * a) + (if 1 + iscoS a > 3 then 3 else 1 + iscoS a) * (if 1 + iscoS a > 3 then 3 else 1 + iscoS a))))) = _
    rw [if_neg (by linarith)]
  set s := iscoS a with hs
  set Z2 := sqrt (3 * (a * a) + (1 + s) * (1 + s)) with hZ2
  have hZ2n : 0 ≤ Z2 := sqrt_nonneg _
  have hrad : 0 < 3 * (a * a) + (1 + s) * (1 + s) :=
    add_pos_of_nonneg_of_pos (mul_nonneg (by norm_num) (mul_self_nonneg a)) (mul_pos (by linarith) (by linarith))
  have hZ2s : Z2 ^ 2 = 3 * a ^ 2 + (1 + s) ^ 2 := by
    rw [hZ2, sq_sqrt hrad.le]; ring
  have hZ2pos : 0 < Z2 := sqrt_pos.2 hrad
  have hA2 : (0 : ℝ) ≤ 2 * (3 - (1 + s)) := by linarith
  have hB2 : (0 : ℝ) ≤ 2 * (3 + (1 + s) + 2 * Z2) := by linarith
  set A := sqrt (2 * (3 - (1 + s))) with hA
  set B := sqrt (2 * (3 + (1 + s) + 2 * Z2)) with hB
  have hAn : 0 ≤ A := sqrt_nonneg _
  have hAs : A ^ 2 = 2 * (3 - (1 + s)) := sq_sqrt hA2
  have hBs : B ^ 2 = 2 * (3 + (1 + s) + 2 * Z2) := sq_sqrt hB2
  have hBn : 0 ≤ B := sqrt_nonneg _
  have hAB : A < B := sqrt_lt_sqrt hA2 (by linarith)
  have hW : sqrt ((3 - (1 + s)) * (3 + (1 + s) + 2 * Z2)) = A * B / 2 := by
    rw [sqrt_eq_iff_mul_self_eq (mul_nonneg (by linarith) (by linarith)) (by positivity)]
    have : A * B / 2 * (A * B / 2) = A ^ 2 * B ^ 2 / 4 := by ring
    rw [this, hAs, hBs]; ring
  have hAZ : A * Z2 = 4 * |a| := by
    have : (A * Z2) ^ 2 = (4 * |a|) ^ 2 := by
      rw [mul_pow, mul_pow, hAs, hZ2s, sq_abs]
      nlinarith [hs3]
    exact (pow_left_inj₀ (by positivity) (by positivity) two_ne_zero).1 this
  rw [hW] at hr
  have hA0 : a = 0 → A = 0 := fun h => by
    have : A * Z2 = 0 := by rw [hAZ, h]; simp
    exact (mul_eq_zero.1 this).resolve_right hZ2pos.ne'
  have hσ : (Real.sign a * A) ^ 2 = 2 * (3 - (1 + s)) := by
    rw [← hAs]
    rcases lt_trichotomy a 0 with h | h | h
    · rw [Real.sign_of_neg h]; ring
    · rw [hA0 h]; ring
    · rw [Real.sign_of_pos h]; ring
  refine ⟨(B - Real.sign a * A) / 2, A, 1 + s, Z2, ?_, ?_, hAn, hσ, hZ2s, hZ2n, hAZ, ?_, rfl⟩
  · rw [hr]
    linear_combination -(1 / 4) * hσ - 1 / 4 * hBs
  · rcases lt_trichotomy a 0 with h | h | h
    · rw [Real.sign_of_neg h]; linarith
    · rw [h, Real.sign_zero]; linarith
    · rw [Real.sign_of_pos h]; linarith
  · linear_combination 1 / 4 * hBs - 1 / 4 * hσ

/-- the ISCO radius is a root of the Kerr ISCO equation, written in `u = √r` -/
lemma isco_quartic {a : ℝ} (h1 : -1 ≤ a) (h2 : a ≤ 1) :
    ∃ u, rISCOof a = u ^ 2 ∧ 0 < u ∧ u ^ 4 - 6 * u ^ 2 + 8 * a * u - 3 * a ^ 2 = 0 := by
  obtain ⟨u, A, Z1, Z2, hr, hu, -, hs2, hZ, -, hAZ, hq, -⟩ := rISCO_sqrt h1 h2
  refine ⟨u, hr, hu, ?_⟩
  have hs : Real.sign a * (A * Z2) = 4 * a := by
    rw [hAZ]
    rcases lt_trichotomy a 0 with h | h | h
    · rw [Real.sign_of_neg h, abs_of_neg h]; ring
    · rw [h]; simp
    · rw [Real.sign_of_pos h, abs_of_pos h]; ring
  generalize Real.sign a = σ at *
  have e : u ^ 4 - 6 * u ^ 2 + 8 * a * u - 3 * a ^ 2 = (u ^ 2 + σ * A * u - (Z1 + Z2)) * (u ^ 2 - σ * A * u + (Z2 - Z1)) := by
    have : (u ^ 2 + σ * A * u - (Z1 + Z2)) * (u ^ 2 - σ * A * u + (Z2 - Z1)) =
      u ^ 4 - (2 * Z1 + (σ * A) ^ 2) * u ^ 2 + 2 * (σ * (A * Z2)) * u + Z1 ^ 2 - Z2 ^ 2 := by ring
    rw [this, hs, hs2, hZ]; ring
  rw [e, hq]; ring

/-- spin of the Kerr black hole whose ISCO radius is `u ^ 2` -/
noncomputable def iscoSpin (u : ℝ) : ℝ := u * (4 - sqrt (3 * u ^ 2 - 2)) / 3

lemma isco_range {a u : ℝ} (h1 : -1 ≤ a) (h2 : a ≤ 1) (hu : 0 < u)
    (hq : u ^ 4 - 6 * u ^ 2 + 8 * a * u - 3 * a ^ 2 = 0) : 1 ≤ u ∧ u ≤ 3 ∧ a = iscoSpin u := by
  have hsq : (3 * a - 4 * u) ^ 2 = u ^ 2 * (3 * u ^ 2 - 2) := by linear_combination -3 * hq
  have hw0 : 0 ≤ 3 * u ^ 2 - 2 := by
    by_contra h
    push Not at h
    have := mul_neg_of_pos_of_neg (pow_pos hu 2) h
    have := sq_nonneg (3 * a - 4 * u)
    linarith
  unfold iscoSpin
  set w := sqrt (3 * u ^ 2 - 2) with hw
  have hwn : 0 ≤ w := sqrt_nonneg _
  have hws : w ^ 2 = 3 * u ^ 2 - 2 := sq_sqrt hw0
  rw [← hws, ← mul_pow] at hsq
  have hus : u ^ 2 = (w ^ 2 + 2) / 3 := by linarith
  have hle : u * (4 - w) ≤ 3 * a ∧ (3 * a = u * (4 - w) ∨ 3 * a = u * (4 + w)) := by
    rcases sq_eq_sq_iff_eq_or_eq_neg.1 hsq with h | h
    · exact ⟨by nlinarith, Or.inr (by linarith)⟩
    · exact ⟨by linarith, Or.inl (by linarith)⟩
  have hu1 : 1 ≤ u := by
    by_contra h
    push Not at h
    have hw1 : w < 1 := by nlinarith
    have h3 : u * (4 - w) ≤ 3 := by linarith [hle.1]
    have h4 : (u * (4 - w)) ^ 2 ≤ 3 ^ 2 := pow_le_pow_left₀ (mul_nonneg hu.le (by linarith)) h3 2
    rw [mul_pow, hus] at h4
    have h5 : (1 - w) ^ 3 * (5 - w) ≤ 0 := by nlinarith
    have h6 : 0 < (1 - w) ^ 3 * (5 - w) := mul_pos (pow_pos (by linarith) 3) (by linarith)
    linarith
  have hw1 : 1 ≤ w := by nlinarith
  have hbr : 3 * a = u * (4 - w) := by
    rcases hle.2 with h | h
    · exact h
    · nlinarith
  refine ⟨hu1, ?_, by linarith⟩
  by_contra h
  push Not at h
  have hw5 : 5 < w := by nlinarith
  nlinarith

lemma iscoSpin_deriv {u : ℝ} (hu : 1 < u) :
    HasDerivAt iscoSpin ((4 - sqrt (3 * u ^ 2 - 2) - 3 * u ^ 2 / sqrt (3 * u ^ 2 - 2)) / 3) u := by
  have h0 : 3 * u ^ 2 - 2 ≠ 0 := by nlinarith
  have hq : HasDerivAt (fun u : ℝ => 3 * u ^ 2 - 2) (6 * u) u := by
    have := ((hasDerivAt_pow 2 u).const_mul 3).sub_const 2
    refine this.congr_deriv ?_
    norm_num; ring
  have := (((hasDerivAt_id u).mul ((hq.sqrt h0).const_sub 4)).div_const 3)
  refine this.congr_deriv ?_
  simp only [id]
  have : 0 < sqrt (3 * u ^ 2 - 2) := sqrt_pos.2 (by nlinarith)
  field_simp
  ring

lemma iscoSpin_continuous : Continuous iscoSpin := by unfold iscoSpin; fun_prop

lemma iscoSpin_strictAnti : StrictAntiOn iscoSpin (Set.Ici 1) := by
  refine strictAntiOn_of_deriv_neg (convex_Ici 1) iscoSpin_continuous.continuousOn fun u hu => ?_
  rw [interior_Ici] at hu
  have hu := Set.mem_Ioi.1 hu
  rw [(iscoSpin_deriv hu).deriv]
  have h0 : (1 : ℝ) < 3 * u ^ 2 - 2 := by nlinarith
  have hws : sqrt (3 * u ^ 2 - 2) ^ 2 = 3 * u ^ 2 - 2 := sq_sqrt (by linarith)
  have hw : 1 < sqrt (3 * u ^ 2 - 2) := by rw [← sqrt_one]; exact sqrt_lt_sqrt (by norm_num) h0
  have hu2 : 3 * u ^ 2 = sqrt (3 * u ^ 2 - 2) ^ 2 + 2 := by linarith
  generalize sqrt (3 * u ^ 2 - 2) = w at *
  rw [hu2]
  have : 4 - w - (w ^ 2 + 2) / w < 0 := by
    rw [sub_neg, lt_div_iff₀ (by linarith)]; nlinarith
  linarith

lemma iscoOmega_strictMono : StrictMonoOn (fun u => u ^ 3 + iscoSpin u) (Set.Ici 1) := by
  refine strictMonoOn_of_deriv_pos (convex_Ici 1) ((continuous_pow 3).add iscoSpin_continuous).continuousOn fun u hu => ?_
  rw [interior_Ici] at hu
  have hu := Set.mem_Ioi.1 hu
  have hd : HasDerivAt (fun u => u ^ 3 + iscoSpin u) _ u := (hasDerivAt_pow 3 u).add (iscoSpin_deriv hu)
  rw [hd.deriv]
  have h0 : (1 : ℝ) < 3 * u ^ 2 - 2 := by nlinarith
  have hws : sqrt (3 * u ^ 2 - 2) ^ 2 = 3 * u ^ 2 - 2 := sq_sqrt (by linarith)
  have hw : 1 < sqrt (3 * u ^ 2 - 2) := by rw [← sqrt_one]; exact sqrt_lt_sqrt (by norm_num) h0
  have hu2 : 3 * u ^ 2 = sqrt (3 * u ^ 2 - 2) ^ 2 + 2 := by linarith
  generalize sqrt (3 * u ^ 2 - 2) = w at *
  push_cast
  rw [hu2]
  have h4 : (w ^ 2 + 2) / w < w + 2 := by
    rw [div_lt_iff₀ (by linarith)]; nlinarith
  nlinarith

lemma isco_exists {a : ℝ} (h1 : -1 ≤ a) (h2 : a ≤ 1) :
    ∃ u, rISCOof a = u ^ 2 ∧ 1 ≤ u ∧ u ≤ 3 ∧ a = iscoSpin u ∧ u ^ 4 - 6 * u ^ 2 + 8 * a * u - 3 * a ^ 2 = 0 := by
  obtain ⟨u, hr, hu, hq⟩ := isco_quartic h1 h2
  obtain ⟨c1, c2, c3⟩ := isco_range h1 h2 hu hq
  exact ⟨u, hr, c1, c2, c3, hq⟩

lemma fISCO_eq {a u : ℝ} (hr : rISCOof a = u ^ 2) (hu : 0 ≤ u) : fISCOof a = 1 / (u ^ 3 + a) / π := by
  unfold fISCOof
  simp only [hr, sqrt_sq hu, PI]
  rw [show u * u * u = u ^ 3 by ring]

end XAS
end Ripple

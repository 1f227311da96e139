/-
  Property theorems C55, C56, C83, C84: ingredients of PhenomPv2.
-/
import Verif.Proofs.Pv2Frame
import Mathlib.Analysis.SpecialFunctions.Trigonometric.Arctan
import Mathlib.Analysis.SpecialFunctions.Trigonometric.Deriv
import Mathlib.Analysis.Calculus.Deriv.Inv

namespace Ripple
open Pv2

/-! ### C55: Wigner coefficients -/

/-- the returned pair is the cosine and sine of half the opening angle -/
theorem C55_half_angle (v SL eta Sp : ℝ) (hv : 0 < v) (_hL : orbitalL 1 eta v + SL ≠ 0) :
    let b := Real.arctan |Sp / (orbitalL 1 eta v + SL)|
    WignerdCoefficients v SL eta Sp = (Real.cos (b / 2), Real.sin (b / 2)) := by
  intro b
  have hL : L2PNR v eta = orbitalL 1 eta v := by rw [L2PNR_eq hv]; unfold orbitalL; ring
  have hb0 : 0 ≤ b := Real.arctan_nonneg.2 (abs_nonneg _)
  have hb1 : b < Real.pi / 2 := Real.arctan_lt_pi_div_two _
  have hcos : Real.cos b = 1 / (1 + (Sp / (orbitalL 1 eta v + SL)) ^ 2) ^ (0.5 : ℝ) := by
    rw [Real.cos_arctan, sq_abs, Real.sqrt_eq_rpow]; norm_num
  have hpi := Real.pi_pos
  have hhalf : ∀ x : ℝ, x ^ (0.5 : ℝ) = Real.sqrt x := fun x => by rw [Real.sqrt_eq_rpow]; norm_num
  simp only [WignerdCoefficients, hL, ← hcos]
  rw [hhalf, hhalf, Real.cos_half (by linarith) (by linarith), Real.sin_half_eq_sqrt hb0 (by linarith)]

theorem C55_unit (v SL eta Sp : ℝ) (hv : 0 < v) (hL : orbitalL 1 eta v + SL ≠ 0) :
    let w := WignerdCoefficients v SL eta Sp
    w.1 ^ 2 + w.2 ^ 2 = 1 ∧ 0 ≤ w.2 ∧ w.2 < w.1 := by
  intro w
  have h := C55_half_angle v SL eta Sp hv hL
  have hpi := Real.pi_pos
  have hb0 : 0 ≤ Real.arctan |Sp / (orbitalL 1 eta v + SL)| := Real.arctan_nonneg.2 (abs_nonneg _)
  have hb1 : Real.arctan |Sp / (orbitalL 1 eta v + SL)| < Real.pi / 2 := Real.arctan_lt_pi_div_two _
  simp only [w]
  rw [show WignerdCoefficients v SL eta Sp = _ from h]
  refine ⟨by simp only; linarith [Real.sin_sq_add_cos_sq (Real.arctan |Sp / (orbitalL 1 eta v + SL)| / 2)], ?_, ?_⟩
  · exact Real.sin_nonneg_of_nonneg_of_le_pi (by linarith) (by linarith)
  · simp only
    rw [← Real.cos_pi_div_two_sub]
    exact Real.cos_lt_cos_of_nonneg_of_le_pi_div_two (by linarith) (by linarith) (by linarith)

theorem C55_no_precession (v SL eta Sp : ℝ) (hv : 0 < v) (hL : orbitalL 1 eta v + SL ≠ 0) :
    (WignerdCoefficients v SL eta Sp).2 = 0 ↔ Sp = 0 := by
  rw [show WignerdCoefficients v SL eta Sp = _ from C55_half_angle v SL eta Sp hv hL]
  have hpi := Real.pi_pos
  have hb0 : 0 ≤ Real.arctan |Sp / (orbitalL 1 eta v + SL)| := Real.arctan_nonneg.2 (abs_nonneg _)
  have hb1 : Real.arctan |Sp / (orbitalL 1 eta v + SL)| < Real.pi / 2 := Real.arctan_lt_pi_div_two _
  simp only
  rw [Real.sin_eq_zero_iff_of_lt_of_lt (by linarith) (by linarith), div_eq_zero_iff, Real.arctan_eq_zero_iff,
    abs_eq_zero, div_eq_zero_iff]
  constructor
  · rintro ((h | h) | h)
    · exact h
    · exact absurd h hL
    · norm_num at h
  · exact fun h => Or.inl (Or.inl h)

example : (0 : ℝ) < 0.3 ∧ orbitalL 1 0.2 0.3 + 0.1 ≠ 0 := by
  unfold orbitalL; norm_num

/-! ### C56: spin-weighted spherical harmonics -/

/-- The harmonics of spin weight -2 and degree 2 in closed form: with `c = cos(theta/2)`, `s = sin(theta/2)`,
    `sqrt(5/4π) sqrt(binomial(4, 2+m)) c^(2+m) s^(2-m) e^(i m phi)`. -/
noncomputable def swsh (theta phi : ℝ) (m : ℤ) : ℂ :=
  ((Real.sqrt (5 / (4 * Real.pi)) * Real.sqrt (Nat.choose 4 (2 + m).toNat) * Real.cos (theta / 2) ^ (2 + m).toNat
    * Real.sin (theta / 2) ^ (2 - m).toNat : ℝ) : ℂ) * Complex.exp (Complex.I * m * phi)

lemma swsh_val (theta phi : ℝ) :
    let n := Real.sqrt (5 / (4 * Real.pi))
    let c := Real.cos (theta / 2)
    let s := Real.sin (theta / 2)
    swsh theta phi (-2) = ((n * s ^ 4 : ℝ) : ℂ) * Complex.exp (Complex.I * ((-2 : ℤ) : ℂ) * phi) ∧
    swsh theta phi (-1) = ((n * 2 * c * s ^ 3 : ℝ) : ℂ) * Complex.exp (Complex.I * ((-1 : ℤ) : ℂ) * phi) ∧
    swsh theta phi 0 = ((n * Real.sqrt 6 * c ^ 2 * s ^ 2 : ℝ) : ℂ) * Complex.exp (Complex.I * ((0 : ℤ) : ℂ) * phi) ∧
    swsh theta phi 1 = ((n * 2 * c ^ 3 * s : ℝ) : ℂ) * Complex.exp (Complex.I * ((1 : ℤ) : ℂ) * phi) ∧
    swsh theta phi 2 = ((n * c ^ 4 : ℝ) : ℂ) * Complex.exp (Complex.I * ((2 : ℤ) : ℂ) * phi) := by
  have h4 : Real.sqrt 4 = 2 := by
    rw [show (4 : ℝ) = 2 ^ 2 by norm_num, Real.sqrt_sq (by norm_num)]
  intro n c s
  unfold swsh
  refine ⟨?_, ?_, ?_, ?_, ?_⟩
  · rw [show (2 + (-2 : ℤ)).toNat = 0 from rfl, show (2 - (-2 : ℤ)).toNat = 4 from rfl]
    simp [Nat.choose, n, s]
  · rw [show (2 + (-1 : ℤ)).toNat = 1 from rfl, show (2 - (-1 : ℤ)).toNat = 3 from rfl]
    simp [h4, n, s, c]
  · rw [show (2 + (0 : ℤ)).toNat = 2 from rfl, show (2 - (0 : ℤ)).toNat = 2 from rfl,
      show Nat.choose 4 2 = 6 from rfl]
    simp [n, s, c]
  · rw [show (2 + (1 : ℤ)).toNat = 3 from rfl, show (2 - (1 : ℤ)).toNat = 1 from rfl,
      show Nat.choose 4 3 = 4 from rfl]
    simp [h4, n, s, c]
  · rw [show (2 + (2 : ℤ)).toNat = 4 from rfl, show (2 - (2 : ℤ)).toNat = 0 from rfl]
    simp [n, c]

theorem C56_value (theta phi : ℝ) (m : ℤ) (hm : |m| ≤ 2) :
    SpinWeightedY theta phi (-2) 2 m = .ok (swsh theta phi m) := by
  have hc : Real.cos theta = 2 * Real.cos (theta / 2) ^ 2 - 1 := by
    rw [← Real.cos_two_mul]; congr 1; ring
  have hs : Real.sin theta = 2 * Real.sin (theta / 2) * Real.cos (theta / 2) := by
    rw [← Real.sin_two_mul]; congr 1; ring
  have hsc := Real.sin_sq_add_cos_sq (theta / 2)
  have hpi := Real.pi_pos
  set c := Real.cos (theta / 2)
  set s := Real.sin (theta / 2)
  have h1 : 1 - Real.cos theta = 2 * s ^ 2 := by rw [hc]; linarith
  have h2 : 1 + Real.cos theta = 2 * c ^ 2 := by rw [hc]; ring
  have hn : Real.sqrt (5 / (4 * Real.pi)) ≥ 0 := Real.sqrt_nonneg _
  have r64 : Real.sqrt (5 / (64 * PI)) = Real.sqrt (5 / (4 * Real.pi)) / 4 := by
    rw [show (5 : ℝ) / (64 * PI) = 5 / (4 * Real.pi) / 4 ^ 2 by unfold PI; field_simp; norm_num,
      Real.sqrt_div (by positivity), Real.sqrt_sq (by norm_num)]
  have r16 : Real.sqrt (5 / (16 * PI)) = Real.sqrt (5 / (4 * Real.pi)) / 2 := by
    rw [show (5 : ℝ) / (16 * PI) = 5 / (4 * Real.pi) / 2 ^ 2 by unfold PI; field_simp; norm_num,
      Real.sqrt_div (by positivity), Real.sqrt_sq (by norm_num)]
  have r32 : Real.sqrt (15 / (32 * PI)) = Real.sqrt (5 / (4 * Real.pi)) * Real.sqrt 6 / 4 := by
    rw [show (15 : ℝ) / (32 * PI) = 5 / (4 * Real.pi) * 6 / 4 ^ 2 by unfold PI; field_simp; norm_num,
      Real.sqrt_div (by positivity), Real.sqrt_sq (by norm_num), Real.sqrt_mul (by positivity)]
  have h4 : Real.sqrt 4 = 2 := by
    rw [show (4 : ℝ) = 2 ^ 2 by norm_num, Real.sqrt_sq (by norm_num)]
  have hcases : m = -2 ∨ m = -1 ∨ m = 0 ∨ m = 1 ∨ m = 2 := by
    rw [abs_le] at hm; omega
  obtain ⟨v1, v2, v3, v4, v5⟩ := swsh_val theta phi
  generalize Real.sqrt (5 / (4 * Real.pi)) = n at *
  rcases hcases with rfl | rfl | rfl | rfl | rfl
  · rw [v1]
    simp only [SpinWeightedY, if_true]
    show Except.ok _ = Except.ok _
    congr 3
    rw [h1, r64]; ring
  · rw [v2]
    simp only [SpinWeightedY, if_true, show ¬ ((-1 : ℤ) = -2) by norm_num, if_false]
    show Except.ok _ = Except.ok _
    congr 3
    rw [h1, hs, r16]; ring
  · rw [v3]
    simp only [SpinWeightedY, if_true, show ¬ ((0 : ℤ) = -2) by norm_num, show ¬ ((0 : ℤ) = -1) by norm_num, if_false]
    show Except.ok _ = Except.ok _
    congr 3
    rw [hs, r32]; ring
  · rw [v4]
    simp only [SpinWeightedY, if_true, show ¬ ((1 : ℤ) = -2) by norm_num, show ¬ ((1 : ℤ) = -1) by norm_num,
      show ¬ ((1 : ℤ) = 0) by norm_num, if_false]
    show Except.ok _ = Except.ok _
    congr 3
    rw [h2, hs, r16]; ring
  · rw [v5]
    simp only [SpinWeightedY, if_true, show ¬ ((2 : ℤ) = -2) by norm_num, show ¬ ((2 : ℤ) = -1) by norm_num,
      show ¬ ((2 : ℤ) = 0) by norm_num, show ¬ ((2 : ℤ) = 1) by norm_num, if_false]
    show Except.ok _ = Except.ok _
    congr 3
    rw [h2, r64]; ring

/-- orders beyond the degree raise `ValueError` -/
theorem C56_bad_order (theta phi : ℝ) (m : ℤ) (hm : 2 < |m|) :
    SpinWeightedY theta phi (-2) 2 m = .error .valueError := by
  have h1 : m ≠ -2 := by rintro rfl; norm_num at hm
  have h2 : m ≠ -1 := by rintro rfl; norm_num at hm
  have h3 : m ≠ 0 := by rintro rfl; norm_num at hm
  have h4 : m ≠ 1 := by rintro rfl; norm_num at hm
  have h5 : m ≠ 2 := by rintro rfl; norm_num at hm
  simp only [SpinWeightedY, if_true, h1, h2, h3, h4, h5, if_false]
  rfl

/-- any other spin weight or degree fails with an unbound local variable, whatever the order -/
theorem C56_unsupported (theta phi : ℝ) (s l m : ℤ) (h : s ≠ -2 ∨ l ≠ 2) :
    SpinWeightedY theta phi s l m = .error .unboundLocalError := by
  unfold SpinWeightedY
  by_cases hs : s = -2
  · have hl : l ≠ 2 := by tauto
    rw [if_pos hs, if_neg hl]; rfl
  · rw [if_neg hs]; rfl

/-- addition theorem: the five squared moduli add up to 5/(4π) in every direction -/
theorem C56_sum (theta phi : ℝ) (Y : ℤ → ℂ) (hY : ∀ m, |m| ≤ 2 → SpinWeightedY theta phi (-2) 2 m = .ok (Y m)) :
    ‖Y (-2)‖ ^ 2 + ‖Y (-1)‖ ^ 2 + ‖Y 0‖ ^ 2 + ‖Y 1‖ ^ 2 + ‖Y 2‖ ^ 2 = 5 / (4 * Real.pi) := by
  have e : ∀ m, |m| ≤ 2 → Y m = swsh theta phi m := fun m hm => by
    have := hY m hm
    rw [C56_value theta phi m hm] at this
    exact (Except.ok.inj this).symm
  have hn : ∀ m : ℤ, ‖Complex.exp (Complex.I * m * phi)‖ = 1 := fun m => by
    rw [show Complex.I * (m : ℂ) * (phi : ℂ) = ((m * phi : ℝ) : ℂ) * Complex.I by push_cast; ring]
    exact Complex.norm_exp_ofReal_mul_I _
  rw [e _ (by norm_num), e _ (by norm_num), e _ (by norm_num), e _ (by norm_num), e _ (by norm_num)]
  obtain ⟨v1, v2, v3, v4, v5⟩ := swsh_val theta phi
  rw [v1, v2, v3, v4, v5]
  have hq : ∀ (x : ℝ) (m : ℤ), ‖(x : ℂ) * Complex.exp (Complex.I * m * phi)‖ ^ 2 = x ^ 2 := fun x m => by
    rw [norm_mul, hn, mul_one, Complex.norm_real, Real.norm_eq_abs, sq_abs]
  rw [hq, hq, hq, hq, hq]
  have hpi := Real.pi_pos
  have h5 : Real.sqrt (5 / (4 * Real.pi)) ^ 2 = 5 / (4 * Real.pi) := Real.sq_sqrt (by positivity)
  have h6 : Real.sqrt 6 ^ 2 = 6 := Real.sq_sqrt (by norm_num)
  have hsc := Real.sin_sq_add_cos_sq (theta / 2)
  refine Eq.trans ?_ h5
  set c := Real.cos (theta / 2)
  set s := Real.sin (theta / 2)
  set n := Real.sqrt (5 / (4 * Real.pi))
  have : n ^ 2 * (s ^ 2 + c ^ 2) ^ 4 = n ^ 2 := by rw [hsc]; ring
  rw [← this]
  linear_combination n ^ 2 * c ^ 4 * s ^ 4 * h6

/-- reflection: the harmonic of order `-m` at angle `theta` is that of order `m` at `π - theta` (zero azimuth) -/
theorem C56_reflection (theta : ℝ) (m : ℤ) (hm : |m| ≤ 2) :
    SpinWeightedY (Real.pi - theta) 0 (-2) 2 (-m) = SpinWeightedY theta 0 (-2) 2 m := by
  rw [C56_value _ _ _ hm, C56_value _ _ _ (by rwa [abs_neg])]
  have h1 : Real.cos ((Real.pi - theta) / 2) = Real.sin (theta / 2) := by
    rw [← Real.cos_pi_div_two_sub]; congr 1; ring
  have h2 : Real.sin ((Real.pi - theta) / 2) = Real.cos (theta / 2) := by
    rw [← Real.sin_pi_div_two_sub]; congr 1; ring
  have hcases : m = -2 ∨ m = -1 ∨ m = 0 ∨ m = 1 ∨ m = 2 := by
    rw [abs_le] at hm; omega
  obtain ⟨v1, v2, v3, v4, v5⟩ := swsh_val theta 0
  obtain ⟨w1, w2, w3, w4, w5⟩ := swsh_val (Real.pi - theta) 0
  simp only [h1, h2] at w1 w2 w3 w4 w5
  rcases hcases with rfl | rfl | rfl | rfl | rfl
  · rw [show -(-2 : ℤ) = 2 from rfl, v1, w5]; simp
  · rw [show -(-1 : ℤ) = 1 from rfl, v2, w4]; simp; ring
  · rw [show -(0 : ℤ) = 0 from rfl, v3, w3]; simp; ring
  · rw [v4, w2]; simp; ring
  · rw [v5, w1]; simp

example : SpinWeightedY 0.3 0.1 (-2) 2 1 = .ok (swsh 0.3 0.1 1) ∧
    SpinWeightedY 0.3 0.1 (-2) 2 5 = .error .valueError ∧
    SpinWeightedY 0.3 0.1 0 0 0 = .error .unboundLocalError :=
  ⟨C56_value _ _ _ (by norm_num), C56_bad_order _ _ _ (by norm_num), C56_unsupported _ _ _ _ _ (by norm_num)⟩

/-! ### C83: orbital angular momentum and the first law -/

/-- binding energy of a non-spinning circular binary of unit total mass to second post-Newtonian order -/
noncomputable def bindingE (eta v : ℝ) : ℝ :=
  -eta * v ^ 2 / 2 * (1 - (3 / 4 + eta / 12) * v ^ 2 - (27 / 8 - 19 * eta / 8 + eta ^ 2 / 24) * v ^ 4)

/-- `L2PNR` satisfies `dE = omega dL` with the post-Newtonian binding energy except for the eta² term at second order,
    whose sign is wrong: the defect is exactly `eta³ v⁵ / 4`. -/
theorem C83_first_law (eta v : ℝ) (hv : 0 < v) :
    deriv (fun v => bindingE eta v) v - v ^ 3 * deriv (fun v => L2PNR v eta) v = eta ^ 3 * v ^ 5 / 4 := by
  have hE : deriv (fun v => bindingE eta v) v =
      -eta * v + 4 * (eta / 2) * (3 / 4 + eta / 12) * v ^ 3
        + 6 * (eta / 2) * (27 / 8 - 19 * eta / 8 + eta ^ 2 / 24) * v ^ 5 := by
    have : (fun v => bindingE eta v) = fun v : ℝ => -(eta / 2) * v ^ 2 + (eta / 2) * (3 / 4 + eta / 12) * v ^ 4
        + (eta / 2) * (27 / 8 - 19 * eta / 8 + eta ^ 2 / 24) * v ^ 6 := by
      funext v; unfold bindingE; ring
    rw [this]
    have h := (((hasDerivAt_pow 2 v).const_mul (-(eta / 2))).add
      ((hasDerivAt_pow 4 v).const_mul ((eta / 2) * (3 / 4 + eta / 12)))).add
      ((hasDerivAt_pow 6 v).const_mul ((eta / 2) * (27 / 8 - 19 * eta / 8 + eta ^ 2 / 24)))
    refine Eq.trans (HasDerivAt.deriv h) ?_
    norm_num
    ring
  have hL : deriv (fun v => L2PNR v eta) v =
      -eta / v ^ 2 + eta * (3 / 2 + eta / 6) + 3 * eta * (27 / 8 - 19 * eta / 8 - eta ^ 2 / 24) * v ^ 2 := by
    have hev : (fun v => L2PNR v eta) =ᶠ[nhds v] fun v : ℝ => eta * v⁻¹ + eta * (3 / 2 + eta / 6) * v
        + eta * (27 / 8 - 19 * eta / 8 - eta ^ 2 / 24) * v ^ 3 := by
      filter_upwards [Ioi_mem_nhds hv] with x hx
      have hx' : 0 < x := Set.mem_Ioi.1 hx
      rw [L2PNR_eq hx']
      field_simp
    rw [hev.deriv_eq]
    have h := (((hasDerivAt_inv hv.ne').const_mul eta).add
      ((hasDerivAt_id v).const_mul (eta * (3 / 2 + eta / 6)))).add
      ((hasDerivAt_pow 3 v).const_mul (eta * (27 / 8 - 19 * eta / 8 - eta ^ 2 / 24)))
    refine Eq.trans (HasDerivAt.deriv h) ?_
    norm_num
    field_simp
  rw [hE, hL]
  field_simp
  ring

/-- it is positive and the Newtonian value dominates: `L v / eta → 1`, with an explicit error, for every
    symmetric mass ratio -/
theorem C83_newtonian (eta v : ℝ) (he : 0 < eta) (he' : eta ≤ 1 / 4) (hv : 0 < v) (hv1 : v ≤ 1) :
    0 < L2PNR v eta ∧ |L2PNR v eta * v / eta - 1| ≤ 5 * v ^ 2 := by
  rw [L2PNR_eq hv]
  have hv2 : 0 < v ^ 2 := by positivity
  have hv4 : v ^ 4 ≤ v ^ 2 := by nlinarith [sq_nonneg v, mul_le_one₀ hv1 hv.le hv1]
  have hv40 : 0 < v ^ 4 := by positivity
  have hc0 : 0 < 27 / 8 - 19 * eta / 8 - eta ^ 2 / 24 := by nlinarith
  have hc1 : 27 / 8 - 19 * eta / 8 - eta ^ 2 / 24 ≤ 27 / 8 - eta / 6 := by nlinarith
  refine ⟨by positivity, ?_⟩
  have e : eta / v * (1 + (3 / 2 + eta / 6) * v ^ 2 + (27 / 8 - 19 * eta / 8 - eta ^ 2 / 24) * v ^ 4) * v / eta - 1 =
      (3 / 2 + eta / 6) * v ^ 2 + (27 / 8 - 19 * eta / 8 - eta ^ 2 / 24) * v ^ 4 := by
    field_simp; ring
  rw [e, abs_of_nonneg (by positivity)]
  nlinarith [mul_le_mul hc1 hv4 hv40.le (by nlinarith)]

/-! ### C84: precession coefficients -/

section
variable (m1 m2 chil chip : ℝ)

/-- The leading precession coefficient integrates the leading-order precession rate
    `Omega = (2 + 3 m1/(2 m2)) eta v⁵` (spin on the heavier body `m2`) over the quadrupole inspiral
    `dv/dt = 32/5 eta v⁹`; the decimal literal in the code costs at most 1e-16. -/
theorem C84_leading (h1 : 0 < m1) (h2 : 0 < m2) (h : m1 + m2 = 1) (v : ℝ) (hv : 0 < v) :
    let a := ComputeNNLOanglecoeffs (m2 / m1) chil chip
    |deriv (fun v : ℝ => a.alphacoeff1 / v ^ 3) v
        - ((2 + 3 * m1 / (2 * m2)) * (m1 * m2) * v ^ 5) / (32 / 5 * (m1 * m2) * v ^ 9)| ≤ 1e-16 / v ^ 4 := by
  intro a
  have e2 : m2 / m1 / (1 + m2 / m1) = m2 := by field_simp; rw [h]
  have e1 : 1 / (1 + m2 / m1) = m1 := by field_simp; rw [h]
  have ha : a.alphacoeff1 = -0.18229166666666666 - (5 * (m1 - m2)) / (64 * m2) := by
    show -0.18229166666666666 - (5 * (1 / (1 + m2 / m1) - m2 / m1 / (1 + m2 / m1))) / (64 * (m2 / m1 / (1 + m2 / m1))) = _
    rw [e1, e2]
  have hd : deriv (fun v : ℝ => a.alphacoeff1 / v ^ 3) v = -3 * a.alphacoeff1 / v ^ 4 := by
    have h0 := ((hasDerivAt_pow 3 v).inv (by positivity)).const_mul a.alphacoeff1
    have : (fun v : ℝ => a.alphacoeff1 / v ^ 3) = fun v : ℝ => a.alphacoeff1 * (v ^ 3)⁻¹ := by
      funext v; rw [div_eq_mul_inv]
    rw [this]
    refine Eq.trans (HasDerivAt.deriv h0) ?_
    norm_num
    field_simp
  rw [hd, ha]
  have : -3 * (-0.18229166666666666 - (5 * (m1 - m2)) / (64 * m2)) / v ^ 4
      - ((2 + 3 * m1 / (2 * m2)) * (m1 * m2) * v ^ 5) / (32 / 5 * (m1 * m2) * v ^ 9) =
      (3 * 0.18229166666666666 - 35 / 64) / v ^ 4 := by
    field_simp; ring
  rw [this, abs_div, abs_of_pos (by positivity : (0:ℝ) < v ^ 4)]
  gcongr
  norm_num [abs_le]

/-- the next coefficient, for the effective spin `chil = chi_eff / m2` -/
theorem C84_spin_orbit (h1 : 0 < m1) (h2 : 0 < m2) (h : m1 + m2 = 1) :
    (ComputeNNLOanglecoeffs (m2 / m1) chil chip).alphacoeff2 = -(5 * chil) / (128 * m1) * (3 * m1 + 4 * m2) := by
  have e2 : m2 / m1 / (1 + m2 / m1) = m2 := by field_simp; rw [h]
  have e1 : 1 / (1 + m2 / m1) = m1 := by field_simp; rw [h]
  simp only [ComputeNNLOanglecoeffs, e1, e2]
  field_simp
  ring

/-- The azimuthal angle and the third Euler angle differ only through the in-plane spin: the two sets of
    coefficients coincide at first and second order for every spin, and at every order when `chip = 0`. -/
theorem C84_alpha_epsilon (q : ℝ) :
    let a := ComputeNNLOanglecoeffs q chil chip
    let z := ComputeNNLOanglecoeffs q chil 0
    a.alphacoeff1 = a.epsiloncoeff1 ∧ a.alphacoeff2 = a.epsiloncoeff2 ∧
    a.epsiloncoeff3 = z.epsiloncoeff3 ∧ a.epsiloncoeff4 = z.epsiloncoeff4 ∧ a.epsiloncoeff5 = z.epsiloncoeff5 ∧
    z.alphacoeff3 = z.epsiloncoeff3 ∧ z.alphacoeff4 = z.epsiloncoeff4 ∧ z.alphacoeff5 = z.epsiloncoeff5 := by
  intro a z
  refine ⟨rfl, rfl, rfl, rfl, rfl, ?_, ?_, ?_⟩
  · simp only [z, ComputeNNLOanglecoeffs]; ring
  · simp only [z, ComputeNNLOanglecoeffs]; ring
  · simp only [z, ComputeNNLOanglecoeffs]; ring

/-- The azimuth and the third Euler angle are tied by `dε = cos β dα`, with `tan β = S_⊥ / (L + S_∥)`,
    `L = eta / v`, `S_⊥ = m2² chip`, `S_∥ = m2² chil`.  Expanding in `v` (with `σ = S_∥/eta`, `s = S_⊥/eta`,
    `A = -5 (3 m1 + 4 m2) / (192 m2)` the leading azimuth coefficient and `B` the spin-orbit one of `C84_spin_orbit`)
    the differences have to be `3/2 A s²` and `s² (A σ - B / 3)`, and at the last order the quartic in-plane term
    `3/8 A s⁴` and the mixed term `s² σ (2 B - 9/2 A σ)`; what remains there is linear in `chip²` and independent of
    `chil`. -/
theorem C84_chip (h1 : 0 < m1) (h2 : 0 < m2) (h : m1 + m2 = 1) :
    let a := ComputeNNLOanglecoeffs (m2 / m1) chil chip
    let s := m2 ^ 2 * chip / (m1 * m2)
    let σ := m2 ^ 2 * chil / (m1 * m2)
    let A := -5 * (3 * m1 + 4 * m2) / (192 * m2)
    let B := -(5 * chil) / (128 * m1) * (3 * m1 + 4 * m2)
    a.alphacoeff3 - a.epsiloncoeff3 = 3 / 2 * A * s ^ 2 ∧
    a.alphacoeff4 - a.epsiloncoeff4 = s ^ 2 * (A * σ - B / 3) ∧
    a.alphacoeff5 - a.epsiloncoeff5 = 3 / 8 * A * s ^ 4 + s ^ 2 * σ * (2 * B - 9 / 2 * A * σ)
      + s ^ 2 * (-(485 * m1) / (14336 * m2) + 1195 / 10752
        + 15 * m1 * (m1 - m2) ^ 2 / (256 * m2) + 145 * m1 * (m1 - m2) / 512 + 575 * (m1 * m2) / 1536) := by
  have e2 : m2 / m1 / (1 + m2 / m1) = m2 := by field_simp; rw [h]
  have e1 : 1 / (1 + m2 / m1) = m1 := by field_simp; rw [h]
  simp only [ComputeNNLOanglecoeffs, e1, e2]
  refine ⟨?_, ?_, ?_⟩
  all_goals
    field_simp
    ring

end

example : (0 : ℝ) < 0.4 ∧ (0 : ℝ) < 0.6 ∧ (0.4 : ℝ) + 0.6 = 1 := by norm_num

end Ripple

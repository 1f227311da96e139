/-
  Helper lemmas about the sign of the PhenomD amplitude: the connection quartic in Hermite form, the Lorentzian at the start of
  its region, the inspiral amplitude as a polynomial in the cube root of frequency, and the whole amplitude below the cutoff.
-/
import Verif.Proofs.DPosNum
import Verif.Proofs.Peak
import Verif.Props.RemnantCompare
import Verif.Props.PhenomDPhys

namespace Ripple
namespace PhenomD
open Real Set

/-! ### the connection quartic -/

/-- the connection quartic in terms of the position `s` between the outer nodes -/
lemma delta_hermite {F1 F3 : ℝ} (hh : F1 < F3) (V1 V2 V3 d1 d3 s : ℝ) :
    get_delta0 F1 ((F1 + F3) / 2) F3 V1 V2 V3 d1 d3
      + get_delta1 F1 ((F1 + F3) / 2) F3 V1 V2 V3 d1 d3 * (F1 + s * (F3 - F1))
      + get_delta2 F1 ((F1 + F3) / 2) F3 V1 V2 V3 d1 d3 * (F1 + s * (F3 - F1)) ^ 2
      + get_delta3 F1 ((F1 + F3) / 2) F3 V1 V2 V3 d1 d3 * (F1 + s * (F3 - F1)) ^ 3
      + get_delta4 F1 ((F1 + F3) / 2) F3 V1 V2 V3 d1 d3 * (F1 + s * (F3 - F1)) ^ 4 =
      (1 - s) ^ 2 * (1 - 2 * s) * (V1 * (1 + 4 * s) + (F3 - F1) * d1 * s) + 16 * s ^ 2 * (1 - s) ^ 2 * V2
        + s ^ 2 * (2 * s - 1) * (V3 * (5 - 4 * s) - (F3 - F1) * d3 * (1 - s)) := by
  obtain ⟨h, rfl⟩ : ∃ h, F3 = F1 + h := ⟨F3 - F1, by ring⟩
  have h0 : h ≠ 0 := by intro h0; simp [h0] at hh
  have e1 : F1 - (F1 + (F1 + h)) / 2 = -(h / 2) := by ring
  have e2 : F1 - (F1 + h) = -h := by ring
  have e3 : (F1 + (F1 + h)) / 2 - (F1 + h) = -(h / 2) := by ring
  have e4 : F1 + h - F1 = h := by ring
  have e5 : (F1 + (F1 + h)) / 2 = F1 + h / 2 := by ring
  unfold get_delta0 get_delta1 get_delta2 get_delta3 get_delta4
  rw [e1, e2, e3, e4, e5]
  field_simp
  ring

/-- a sufficient condition for the quartic to be positive between the outer nodes -/
lemma hermite_pos {V0 Vm V1 p q s : ℝ} (h0 : 0 < V0) (hm : 0 < Vm) (h1 : 0 < V1) (hp : 0 ≤ 6 * V0 + p)
    (hV0 : 5 * V0 ≤ 16 * Vm) (hpV : 5 * V0 + p ≤ 16 * Vm) (hq : q ≤ 0) (hqV : 5 * V1 - q ≤ 16 * Vm) (s0 : 0 ≤ s) (s1 : s ≤ 1) :
    0 < (1 - s) ^ 2 * (1 - 2 * s) * (V0 * (1 + 4 * s) + p * s) + 16 * s ^ 2 * (1 - s) ^ 2 * Vm
        + s ^ 2 * (2 * s - 1) * (V1 * (5 - 4 * s) - q * (1 - s)) := by
  rcases le_total s (1 / 2) with hs | hs
  · -- left half: the ringdown term is the only negative one
    have a1 : 0 ≤ (1 - s) ^ 2 * (1 - 2 * s) * ((6 * V0 + p) * s) :=
      mul_nonneg (mul_nonneg (sq_nonneg _) (by linarith)) (mul_nonneg hp s0)
    have a2 : s ^ 2 * (1 - s) ^ 2 * (5 * V1 - q) ≤ s ^ 2 * (1 - s) ^ 2 * (16 * Vm) :=
      mul_le_mul_of_nonneg_left hqV (by positivity)
    have a3 : 0 ≤ s ^ 2 * V1 * (s * (4 - 3 * s)) := mul_nonneg (by positivity) (mul_nonneg s0 (by linarith))
    have a4 : 0 ≤ s ^ 2 * (-q) * ((1 - s) * s) :=
      mul_nonneg (mul_nonneg (sq_nonneg _) (by linarith)) (mul_nonneg (by linarith) s0)
    rcases hs.lt_or_eq with hlt | heq
    · have a5 : 0 < (1 - s) ^ 2 * (1 - 2 * s) * (V0 * (1 - 2 * s)) := by
        refine mul_pos (mul_pos ?_ (by linarith)) (mul_pos h0 (by linarith))
        have : 0 < 1 - s := by linarith
        positivity
      nlinarith
    · subst heq
      norm_num
      linarith
  · -- right half: the inspiral term is the only negative one
    have a2 : 0 ≤ (1 - s) ^ 2 * V0 * ((1 - s) * (1 + 3 * s)) :=
      mul_nonneg (by positivity) (mul_nonneg (by linarith) (by linarith))
    have a4 : 0 ≤ s ^ 2 * (2 * s - 1) * (-q * (1 - s)) :=
      mul_nonneg (mul_nonneg (sq_nonneg _) (by linarith)) (mul_nonneg (by linarith) (by linarith))
    have a1 : 0 ≤ 16 * s ^ 2 * (1 - s) ^ 2 * Vm + (1 - s) ^ 2 * (1 - 2 * s) * (V0 * (1 + 4 * s) + p * s) := by
      rcases le_total p 0 with hp0 | hp0
      · have b1 : (1 - s) ^ 2 * s ^ 2 * (5 * V0) ≤ (1 - s) ^ 2 * s ^ 2 * (16 * Vm) :=
          mul_le_mul_of_nonneg_left hV0 (by positivity)
        have b2 : 0 ≤ (1 - s) ^ 2 * (2 * s - 1) * (-p * s) :=
          mul_nonneg (mul_nonneg (sq_nonneg _) (by linarith)) (mul_nonneg (by linarith) s0)
        nlinarith
      · have b1 : (1 - s) ^ 2 * s ^ 2 * (5 * V0 + p) ≤ (1 - s) ^ 2 * s ^ 2 * (16 * Vm) :=
          mul_le_mul_of_nonneg_left hpV (by positivity)
        have b2 : 0 ≤ (1 - s) ^ 2 * p * s * (1 - s) :=
          mul_nonneg (mul_nonneg (mul_nonneg (sq_nonneg _) hp0) s0) (by linarith)
        nlinarith
    rcases hs.lt_or_eq with hlt | heq
    · have a5 : 0 < s ^ 2 * (2 * s - 1) * (V1 * (5 - 4 * s)) := by
        refine mul_pos (mul_pos ?_ (by linarith)) (mul_pos h1 (by linarith))
        have : 0 < s := by linarith
        positivity
      nlinarith
    · rw [← heq]
      norm_num
      linarith

/-! ### the Lorentzian at the start of its region -/

/-- value and slope of the merger-ringdown amplitude at its transition frequency -/
lemma lor_end {g1 g w h u : ℝ} (hg1 : 0 < g1) (hg : 0 < g) (hg' : g ≤ 1.02) (hw : 0.005 ≤ w) (hh : 0 ≤ h) (hh' : h ≤ 0.2)
    (hu : (1 ≤ g ∧ u = -w / g) ∨ (g < 1 ∧ u = w * (-1 + sqrt (1 - g ^ 2)) / g)) :
    0 < lor g1 g w u ∧ h * deriv (lor g1 g w) u ≤ 0 ∧ 5 * lor g1 g w u - h * deriv (lor g1 g w) u ≤ 8.2 * g1 / w := by
  norm_num at hg' hw hh'
  have hw0 : 0 < w := by linarith
  have hV : 0 < lor g1 g w u := by unfold lor; positivity
  have he1 : exp 1 < 2.7182818286 := exp_one_lt_d9
  norm_num at he1
  refine ⟨hV, ?_⟩
  rw [(lor_deriv hw0 u).deriv]
  rcases hu with ⟨g1', rfl⟩ | ⟨g1', rfl⟩
  · have eu : -(-w / g) * g / w = 1 := by field_simp
    have ed : (-w / g) ^ 2 + w ^ 2 = w ^ 2 * (1 + g ^ 2) / g ^ 2 := by field_simp
    have eq : g * (-w / g) ^ 2 + 2 * w * (-w / g) + g * w ^ 2 = w ^ 2 * (g ^ 2 - 1) / g := by field_simp; ring
    have eL : lor g1 g w (-w / g) = exp 1 * g1 * g ^ 2 / (w * (1 + g ^ 2)) := by
      unfold lor
      rw [eu, ed]
      field_simp
    rw [eL, eu, ed, eq]
    have hD : g1 * exp 1 / (w ^ 2 * (1 + g ^ 2) / g ^ 2) ^ 2 * (w ^ 2 * (g ^ 2 - 1) / g) =
        exp 1 * g1 * g ^ 3 * (g ^ 2 - 1) / (w ^ 2 * (1 + g ^ 2) ^ 2) := by field_simp
    rw [hD]
    have g2 : 0 ≤ g ^ 2 - 1 := by nlinarith
    have g2' : g ^ 2 ≤ 1.0404 := by norm_num; nlinarith
    have hpos : 0 ≤ exp 1 * g1 * g ^ 3 * (g ^ 2 - 1) / (w ^ 2 * (1 + g ^ 2) ^ 2) := by positivity
    refine ⟨by nlinarith, ?_⟩
    have k1 : exp 1 * g1 * g ^ 2 / (w * (1 + g ^ 2)) ≤ 1.3864 * (g1 / w) := by
      rw [show exp 1 * g1 * g ^ 2 / (w * (1 + g ^ 2)) = exp 1 * (g ^ 2 / (1 + g ^ 2)) * (g1 / w) by field_simp]
      refine mul_le_mul_of_nonneg_right ?_ (by positivity)
      have : g ^ 2 / (1 + g ^ 2) ≤ 0.51 := by
        rw [div_le_iff₀ (by positivity)]; norm_num at g2' ⊢; linarith
      have h3 := mul_le_mul he1.le this (by positivity) (by norm_num)
      refine h3.trans (by norm_num)
    have k2 : h * (exp 1 * g1 * g ^ 3 * (g ^ 2 - 1) / (w ^ 2 * (1 + g ^ 2) ^ 2)) ≤ 1.2 * (g1 / w) := by
      rw [show h * (exp 1 * g1 * g ^ 3 * (g ^ 2 - 1) / (w ^ 2 * (1 + g ^ 2) ^ 2)) =
        h / w * (exp 1 * (g ^ 3 * (g ^ 2 - 1) / (1 + g ^ 2) ^ 2)) * (g1 / w) by field_simp]
      refine mul_le_mul_of_nonneg_right ?_ (by positivity)
      have a1 : h / w ≤ 40 := by rw [div_le_iff₀ hw0]; linarith
      have a2 : g ^ 3 * (g ^ 2 - 1) / (1 + g ^ 2) ^ 2 ≤ 0.0108 := by
        rw [div_le_iff₀ (by positivity)]
        have b1 : g ^ 3 ≤ 1.0613 := by
          have : g ^ 3 = g * g ^ 2 := by ring
          rw [this]
          refine (mul_le_mul hg' g2' (by positivity) (by norm_num)).trans (by norm_num)
        have b2 : g ^ 3 * (g ^ 2 - 1) ≤ 1.0613 * 0.0404 := mul_le_mul b1 (by norm_num at g2' ⊢; linarith) g2 (by norm_num)
        have b3 : (4 : ℝ) ≤ (1 + g ^ 2) ^ 2 := by nlinarith
        refine b2.trans ?_
        norm_num
        linarith
      have a3 : exp 1 * (g ^ 3 * (g ^ 2 - 1) / (1 + g ^ 2) ^ 2) ≤ 0.03 :=
        (mul_le_mul he1.le a2 (by positivity) (by norm_num)).trans (by norm_num)
      refine (mul_le_mul a1 a3 (by positivity) (by norm_num)).trans (by norm_num)
    have e : (8.2 : ℝ) * g1 / w = 8.2 * (g1 / w) := by ring
    have hgw : 0 < g1 / w := by positivity
    rw [e]
    norm_num at k1 k2 ⊢
    linarith
  · have hs2 : sqrt (1 - g ^ 2) ^ 2 = 1 - g ^ 2 := sq_sqrt (by nlinarith)
    have hs0 := sqrt_nonneg (1 - g ^ 2)
    generalize sqrt (1 - g ^ 2) = s at *
    have hs1 : s < 1 := by nlinarith
    rw [quad_factor hg hs2, sub_self, mul_zero, zero_mul, mul_zero, neg_zero, mul_zero]
    refine ⟨le_rfl, ?_⟩
    have eL : lor g1 g w (w * (-1 + s) / g) = exp (1 - s) * (1 + s) / 2 * (g1 / w) := by
      unfold lor
      have e1 : -(w * (-1 + s) / g) * g / w = 1 - s := by field_simp; ring
      have e2 : (w * (-1 + s) / g) ^ 2 + w ^ 2 = 2 * w ^ 2 * (1 - s) / g ^ 2 := by
        field_simp
        linear_combination hs2
      have e3 : g ^ 2 = (1 - s) * (1 + s) := by linear_combination hs2
      have e4 : 1 - s ≠ 0 := by linarith
      rw [e1, e2, e3]
      field_simp
    rw [eL]
    have k : exp (1 - s) * (1 + s) ≤ exp 1 := by
      have : exp 1 = exp (1 - s) * exp s := by rw [← exp_add]; congr 1; ring
      rw [this]
      exact mul_le_mul_of_nonneg_left (by linarith [add_one_le_exp s]) (exp_pos _).le
    have : exp (1 - s) * (1 + s) / 2 * (g1 / w) ≤ 1.4 * (g1 / w) :=
      mul_le_mul_of_nonneg_right (by norm_num; linarith) (by positivity)
    have hgw : 0 < g1 / w := by positivity
    rw [show (8.2 : ℝ) * g1 / w = 8.2 * (g1 / w) by ring]
    norm_num at this ⊢
    linarith

/-! ### the inspiral amplitude and the fits in the variables of the numerical bounds -/

/-- spin parameter of the fits, minus 1 -/
noncomputable def xOf (theta : Theta) : ℝ :=
  (theta.chi1 + theta.chi2) / 2 * (1 - 76 * XAS.etaOf theta / 113) + XAS.dOf theta * ((theta.chi1 - theta.chi2) / 2) - 1

lemma get_coeffs_eq (theta : Theta) (i : Fin 19) : get_coeffs theta i =
    PhenomD_coeff_table i 0 + PhenomD_coeff_table i 1 * XAS.etaOf theta
      + xOf theta * (PhenomD_coeff_table i 2 + PhenomD_coeff_table i 3 * XAS.etaOf theta + PhenomD_coeff_table i 4 * XAS.etaOf theta ^ 2)
      + xOf theta ^ 2 * (PhenomD_coeff_table i 5 + PhenomD_coeff_table i 6 * XAS.etaOf theta + PhenomD_coeff_table i 7 * XAS.etaOf theta ^ 2)
      + xOf theta ^ 3 * (PhenomD_coeff_table i 8 + PhenomD_coeff_table i 9 * XAS.etaOf theta + PhenomD_coeff_table i 10 * XAS.etaOf theta ^ 2) := by
  unfold xOf XAS.dOf
  rw [Real.sqrt_eq_rpow]
  rfl

lemma coeff0 (theta : Theta) : get_coeffs theta 0 = cA7 (XAS.etaOf theta) (xOf theta) := by
  rw [get_coeffs_eq]
  simp only [PhenomD_coeff_table, Matrix.cons_val]
  unfold cA7
  ring

lemma coeff1 (theta : Theta) : get_coeffs theta 1 = cA8 (XAS.etaOf theta) (xOf theta) := by
  rw [get_coeffs_eq]
  simp only [PhenomD_coeff_table, Matrix.cons_val]
  unfold cA8
  ring

lemma coeff2 (theta : Theta) : get_coeffs theta 2 = cA9 (XAS.etaOf theta) (xOf theta) := by
  rw [get_coeffs_eq]
  simp only [PhenomD_coeff_table, Matrix.cons_val]
  unfold cA9
  ring

lemma coeff3 (theta : Theta) : get_coeffs theta 3 = cMid (XAS.etaOf theta) (xOf theta) := by
  rw [get_coeffs_eq]
  simp only [PhenomD_coeff_table, Matrix.cons_val]
  unfold cMid
  ring

lemma coeff4 (theta : Theta) : get_coeffs theta 4 = cG1 (XAS.etaOf theta) (xOf theta) := by
  rw [get_coeffs_eq]
  simp only [PhenomD_coeff_table, Matrix.cons_val]
  unfold cG1
  ring

lemma coeff5 (theta : Theta) : get_coeffs theta 5 = cG2 (XAS.etaOf theta) (xOf theta) := by
  rw [get_coeffs_eq]
  simp only [PhenomD_coeff_table, Matrix.cons_val]
  unfold cG2
  ring

lemma coeff6 (theta : Theta) : get_coeffs theta 6 = cG3 (XAS.etaOf theta) (xOf theta) := by
  rw [get_coeffs_eq]
  simp only [PhenomD_coeff_table, Matrix.cons_val]
  unfold cG3
  ring

lemma cV_eq (e X u : ℝ) : cV e X u = cA7 e X + u * (cA8 e X + u * cA9 e X) := by
  unfold cV cA7 cA8 cA9
  ring

lemma cQ_eq (e X u : ℝ) : cQ e X u = 7 * cA7 e X + u * (8 * cA8 e X + u * (9 * cA9 e X)) := by
  unfold cQ cA7 cA8 cA9
  ring

/-- cube root of π -/
noncomputable def pOf : ℝ := PI ^ ((1 : ℝ) / 3)

lemma pOf_cube : pOf ^ 3 = PI := by
  unfold pOf
  rw [← Real.rpow_natCast, ← Real.rpow_mul PI_pos.le]
  norm_num

lemma pOf_range : 1.46459 ≤ pOf ∧ pOf ≤ 1.4646 := by
  have h3 := pOf_cube
  have h0 : 0 < pOf := Real.rpow_pos_of_pos PI_pos _
  have l := Real.pi_gt_d6
  have r := Real.pi_lt_d6
  unfold PI at h3
  constructor
  · by_contra h
    push Not at h
    have : pOf ^ 3 ≤ 1.46459 ^ 3 := pow_le_pow_left₀ h0.le h.le 3
    norm_num at this l
    linarith
  · by_contra h
    push Not at h
    have : (1.4646 : ℝ) ^ 3 ≤ pOf ^ 3 := pow_le_pow_left₀ (by norm_num) h.le 3
    norm_num at this r
    linarith

lemma pow_third {x : ℝ} (hx : 0 ≤ x) (k : ℕ) : (x ^ 3) ^ ((k : ℝ) / 3) = x ^ k := by
  rw [← Real.rpow_natCast, ← Real.rpow_mul hx, ← Real.rpow_natCast]
  congr 1
  push_cast
  ring

/-- the post-Newtonian coefficients of the inspiral amplitude -/
lemma ampCoeffs (theta : Theta) :
    get_inspiral_Amp_coeffs theta = ⟨1, cA2 (XAS.etaOf theta) pOf,
      cA3 (XAS.etaOf theta) (XAS.dOf theta) theta.chi1 theta.chi2 pOf, cA4 (XAS.etaOf theta) (XAS.dOf theta) theta.chi1 theta.chi2 pOf,
      cA5 (XAS.etaOf theta) (XAS.dOf theta) theta.chi1 theta.chi2 pOf, cA6 (XAS.etaOf theta) (XAS.dOf theta) theta.chi1 theta.chi2 pOf⟩ := by
  have h0 : 0 ≤ pOf := (Real.rpow_pos_of_pos PI_pos _).le
  have e2 := pow_third h0 2
  have e4 := pow_third h0 4
  have e5 := pow_third h0 5
  rw [pOf_cube] at e2 e4 e5
  push_cast at e2 e4 e5
  unfold get_inspiral_Amp_coeffs
  simp only [e2, e4, e5]
  rw [← pOf_cube]
  change AmpPN.mk _ _ _ _ _ _ = _
  have ee : theta.m1 * gt * (theta.m2 * gt) / (theta.m1 * gt + theta.m2 * gt) ^ 2 = XAS.etaOf theta := rfl
  have ed : Real.sqrt (1 - 4 * XAS.etaOf theta) = XAS.dOf theta := rfl
  rw [ee, ed]
  generalize XAS.dOf theta = d
  generalize XAS.etaOf theta = e
  congr 1
  · unfold cA4; ring
  · unfold cA5; ring
  · unfold cA6; ring

/-- the inspiral amplitude as a polynomial in the cube root of frequency -/
noncomputable def insV (theta : Theta) (u : ℝ) : ℝ :=
  1 + u ^ 2 * (cA2 (XAS.etaOf theta) pOf + u * (cA3 (XAS.etaOf theta) (XAS.dOf theta) theta.chi1 theta.chi2 pOf
    + u * (cA4 (XAS.etaOf theta) (XAS.dOf theta) theta.chi1 theta.chi2 pOf
    + u * (cA5 (XAS.etaOf theta) (XAS.dOf theta) theta.chi1 theta.chi2 pOf
    + u * (cA6 (XAS.etaOf theta) (XAS.dOf theta) theta.chi1 theta.chi2 pOf + u * cV (XAS.etaOf theta) (xOf theta) u)))))

/-- its derivative times the cube root of frequency -/
noncomputable def insQ (theta : Theta) (u : ℝ) : ℝ :=
  u ^ 2 * (2 * cA2 (XAS.etaOf theta) pOf + u * (3 * cA3 (XAS.etaOf theta) (XAS.dOf theta) theta.chi1 theta.chi2 pOf
    + u * (4 * cA4 (XAS.etaOf theta) (XAS.dOf theta) theta.chi1 theta.chi2 pOf
    + u * (5 * cA5 (XAS.etaOf theta) (XAS.dOf theta) theta.chi1 theta.chi2 pOf
    + u * (6 * cA6 (XAS.etaOf theta) (XAS.dOf theta) theta.chi1 theta.chi2 pOf + u * cQ (XAS.etaOf theta) (xOf theta) u)))))

lemma ins_eq (theta : Theta) {u : ℝ} (hu : 0 ≤ u) : get_inspiral_Amp (u ^ 3) theta (get_coeffs theta) = insV theta u := by
  have e2 := pow_third hu 2
  have e4 := pow_third hu 4
  have e5 := pow_third hu 5
  have e7 := pow_third hu 7
  have e8 := pow_third hu 8
  push_cast at e2 e4 e5 e7 e8
  unfold get_inspiral_Amp
  simp only [ampCoeffs, e2, e4, e5, e7, e8, coeff0, coeff1, coeff2]
  unfold insV
  rw [cV_eq]
  ring

lemma ins_slope (theta : Theta) {u : ℝ} (hu : 0 < u) :
    3 * u ^ 3 * deriv (fun x => get_inspiral_Amp x theta (get_coeffs theta)) (u ^ 3) = insQ theta u := by
  have hd : HasDerivAt (fun x => get_inspiral_Amp x theta (get_coeffs theta)) _ (u ^ 3) :=
    ((cd_inspiral_Amp theta (get_coeffs theta) (pow_pos hu 3)).differentiableAt (by norm_num)).hasDerivAt
  have h1 : HasDerivAt (fun w : ℝ => w ^ 3) (3 * u ^ 2) u := by simpa using hasDerivAt_pow 3 u
  have h2 : HasDerivAt (fun w : ℝ => get_inspiral_Amp (w ^ 3) theta (get_coeffs theta))
      (deriv (fun x => get_inspiral_Amp x theta (get_coeffs theta)) (u ^ 3) * (3 * u ^ 2)) u :=
    HasDerivAt.comp (h₂ := fun x => get_inspiral_Amp x theta (get_coeffs theta)) u hd h1
  obtain ⟨a2, h_2⟩ : ∃ a, a = cA2 (XAS.etaOf theta) pOf := ⟨_, rfl⟩
  obtain ⟨a3, h_3⟩ : ∃ a, a = cA3 (XAS.etaOf theta) (XAS.dOf theta) theta.chi1 theta.chi2 pOf := ⟨_, rfl⟩
  obtain ⟨a4, h_4⟩ : ∃ a, a = cA4 (XAS.etaOf theta) (XAS.dOf theta) theta.chi1 theta.chi2 pOf := ⟨_, rfl⟩
  obtain ⟨a5, h_5⟩ : ∃ a, a = cA5 (XAS.etaOf theta) (XAS.dOf theta) theta.chi1 theta.chi2 pOf := ⟨_, rfl⟩
  obtain ⟨a6, h_6⟩ : ∃ a, a = cA6 (XAS.etaOf theta) (XAS.dOf theta) theta.chi1 theta.chi2 pOf := ⟨_, rfl⟩
  obtain ⟨a7, h_7⟩ : ∃ a, a = cA7 (XAS.etaOf theta) (xOf theta) := ⟨_, rfl⟩
  obtain ⟨a8, h_8⟩ : ∃ a, a = cA8 (XAS.etaOf theta) (xOf theta) := ⟨_, rfl⟩
  obtain ⟨a9, h_9⟩ : ∃ a, a = cA9 (XAS.etaOf theta) (xOf theta) := ⟨_, rfl⟩
  have pw : ∀ n : ℕ, HasDerivAt (fun w : ℝ => w ^ n) (n * u ^ (n - 1)) u := fun n => hasDerivAt_pow n u
  have h3 : HasDerivAt (fun w : ℝ => 1 + a2 * w ^ 2 + a3 * w ^ 3 + a4 * w ^ 4 + a5 * w ^ 5 + a6 * w ^ 6 + a7 * w ^ 7
      + a8 * w ^ 8 + a9 * w ^ 9) _ u :=
    ((((((((hasDerivAt_const u (1 : ℝ)).add ((pw 2).const_mul _)).add ((pw 3).const_mul _)).add
      ((pw 4).const_mul _)).add ((pw 5).const_mul _)).add ((pw 6).const_mul _)).add ((pw 7).const_mul _)).add
      ((pw 8).const_mul _)).add ((pw 9).const_mul _)
  have h4 : (fun w : ℝ => get_inspiral_Amp (w ^ 3) theta (get_coeffs theta)) =ᶠ[nhds u]
      fun w : ℝ => 1 + a2 * w ^ 2 + a3 * w ^ 3 + a4 * w ^ 4 + a5 * w ^ 5 + a6 * w ^ 6 + a7 * w ^ 7
      + a8 * w ^ 8 + a9 * w ^ 9 := by
    filter_upwards [lt_mem_nhds hu] with w hw
    rw [ins_eq theta (le_of_lt hw)]
    unfold insV
    rw [cV_eq, ← h_2, ← h_3, ← h_4, ← h_5, ← h_6, ← h_7, ← h_8, ← h_9]
    ring
  have h5 := h2.unique (h3.congr_of_eventuallyEq h4)
  push_cast at h5
  unfold insQ
  rw [cQ_eq, ← h_2, ← h_3, ← h_4, ← h_5, ← h_6, ← h_7, ← h_8, ← h_9]
  linear_combination u * h5

/-! ### ringdown and damping frequency -/

/-- everything the bounds need to know about the binary -/
structure Box (theta : Theta) (S St a t E R R' : ℝ) : Prop where
  hd : 0 ≤ XAS.dOf theta ∧ XAS.dOf theta ≤ 0.961
  hx : -1 ≤ theta.chi1 ∧ theta.chi1 ≤ 1
  hy : -1 ≤ theta.chi2 ∧ theta.chi2 ≤ 1
  he : XAS.etaOf theta = (1 - XAS.dOf theta ^ 2) / 4
  hS : S = ((1 + XAS.dOf theta) ^ 2 * theta.chi1 + (1 - XAS.dOf theta) ^ 2 * theta.chi2) / 4
  hSt : St = ((1 + XAS.dOf theta) ^ 2 * theta.chi1 + (1 - XAS.dOf theta) ^ 2 * theta.chi2) / (2 * (1 + XAS.dOf theta ^ 2))
  ha : a = S + XAS.etaOf theta * spinR (XAS.etaOf theta) S
  ht : t = 1 - a
  hE : E = XAS.etaOf theta * eradD (XAS.etaOf theta) St
  hE0 : 0 < E
  hE1 : E < 1 / 5
  ht0 : 0.01 ≤ t ∧ t ≤ 2
  hR : R = 0.0272 + 0.0512 / (t + 0.7) + 0.00236 / (t + 0.05)
  hR' : R' = 0.01474 - 0.000447 * t - 0.000706 / (t + 0.06)

/-- upper bound of the ringdown frequency and lower bound of the damping frequency -/
lemma ringdown_box {eps : ℝ} (he : 0 ≤ eps) (he' : eps < 4e-6) {theta : Theta} (h : theta.Physical) (hm : theta.m2 ≤ theta.m1)
    (hd : XAS.dOf theta ≤ 0.961) :
    ∃ S St a t E R R' : ℝ, Box theta S St a t E R R' ∧
      (get_fRD_fdamp (qnmTable eps) theta.m1 theta.m2 theta.chi1 theta.chi2).1 * Ms theta ≤ (R + 0.0001) / (1 - E) ∧
      (R' - 0.000061) / (1 - E) ≤ (get_fRD_fdamp (qnmTable eps) theta.m1 theta.m2 theta.chi1 theta.chi2).2 * Ms theta := by
  obtain ⟨e1, e2, -⟩ := XAS.dOf_spec h
  obtain ⟨d0, -, hd2⟩ := XAS.dOf_range h
  have m1 := h.m1_pos
  have m2 := h.m2_pos
  have hg := gt_pos
  have er := etaOf_range h
  have e0 := (XAS.etaOf_range h).1
  have hE1 := Erad_lt (etaOf theta) theta.chi1 theta.chi2 er.1 er.2 h.chi1_le h.chi2_le
  obtain ⟨hE0, -⟩ := C26_radiated_energy (etaOf theta) theta.chi1 theta.chi2 er.1 er.2 h.chi1_le h.chi2_le
  have eE : EradRational0815 (etaOf theta) theta.chi1 theta.chi2 = XAS.etaOf theta * eradD (XAS.etaOf theta) (XAS.stotOf theta) := by
    rw [← eradD_eq, ← etas_eq]
    unfold EradRational0815 XAS.stotOf XAS.dOf
    simp only [pow_two]
  have hS : spinOf theta = ((1 + XAS.dOf theta) ^ 2 * theta.chi1 + (1 - XAS.dOf theta) ^ 2 * theta.chi2) / 4 := by
    have f1 : 1 + XAS.dOf theta = 2 * (theta.m1 / (theta.m1 + theta.m2)) := by
      unfold Spec.muH at e1; rw [max_eq_left hm] at e1; linarith
    have f2 : 1 - XAS.dOf theta = 2 * (theta.m2 / (theta.m1 + theta.m2)) := by
      unfold Spec.muL at e2; rw [min_eq_right hm] at e2; linarith
    rw [f1, f2]
    unfold spinOf
    field_simp
    ring
  have hSt : XAS.stotOf theta = ((1 + XAS.dOf theta) ^ 2 * theta.chi1 + (1 - XAS.dOf theta) ^ 2 * theta.chi2) /
      (2 * (1 + XAS.dOf theta ^ 2)) := by
    unfold XAS.stotOf
    rw [div_eq_div_iff (by positivity) (by positivity)]
    ring
  have ha : FinalSpin0815_s (etaOf theta) (spinOf theta) =
      spinOf theta + XAS.etaOf theta * spinR (XAS.etaOf theta) (spinOf theta) := by
    rw [← etas_eq, finalSpin_eq e0.ne']
  have hee : XAS.etaOf theta = (1 - XAS.dOf theta ^ 2) / 4 := hd2
  have hx := abs_le.1 h.chi1_le
  have hy := abs_le.1 h.chi2_le
  have hlt := dp_spin _ _ _ _ _ _ ⟨d0, hd⟩ hx hy hee hS ha
  have hgt := (C94_spin_range theta h).1
  have ht0 : (0.01 : ℝ) ≤ 1 - FinalSpin0815_s (etaOf theta) (spinOf theta) ∧
      1 - FinalSpin0815_s (etaOf theta) (spinOf theta) ≤ 2 := by
    norm_num at hlt ⊢
    constructor <;> linarith
  obtain ⟨l1, -, l3⟩ := C97_lookup he he' (FinalSpin0815_s (etaOf theta) (spinOf theta)) hgt.le (by linarith)
  refine ⟨_, _, _, _, _, _, _, ⟨⟨d0, hd⟩, hx, hy, hee, hS, hSt, ha, rfl, eE, hE0, hE1, ht0, rfl, rfl⟩, ?_, ?_⟩
  all_goals
    have e3 : theta.m1 * gt * (theta.m2 * gt) / (theta.m1 * gt + theta.m2 * gt) ^ 2 = etaOf theta := etas_eq theta
    have e4 : (theta.chi1 * (theta.m1 * gt) ^ 2 + theta.chi2 * (theta.m2 * gt) ^ 2) / (theta.m1 * gt + theta.m2 * gt) ^ 2 =
        spinOf theta := by
      unfold spinOf; field_simp
    have e5 : Ms theta ≠ 0 := by unfold Ms; positivity
    have e6 : theta.m1 * gt + theta.m2 * gt = Ms theta := rfl
    unfold get_fRD_fdamp
    simp only [e3, e4, table_eps]
    rw [e6, div_mul_cancel₀ _ e5]
    refine div_le_div_of_nonneg_right ?_ (by linarith)
    have ht2 : 0 ≤ 1 - FinalSpin0815_s (etaOf theta) (spinOf theta) ∧ 1 - FinalSpin0815_s (etaOf theta) (spinOf theta) ≤ 2 := by
      norm_num at ht0; constructor <;> linarith
  · have hb := dp_R _ _ ht0 rfl
    have hp := XAS.rD_pos _ ht2
    rw [XAS.fRDof_eq, sub_zero, div_one] at l1
    have : XAS.rN (1 - FinalSpin0815_s (etaOf theta) (spinOf theta)) / XAS.rD (1 - FinalSpin0815_s (etaOf theta) (spinOf theta)) ≤
        0.0272 + 0.0512 / (1 - FinalSpin0815_s (etaOf theta) (spinOf theta) + 0.7)
        + 0.00236 / (1 - FinalSpin0815_s (etaOf theta) (spinOf theta) + 0.05) := by
      rw [div_le_iff₀ hp]
      linarith
    have := (abs_le.1 l1).2
    linarith
  · have hb := dp_D _ _ ht0 rfl
    have hp := XAS.dD_pos _ ht2
    rw [XAS.fdampOf_eq, sub_zero, div_one] at l3
    have : 0.01474 - 0.000447 * (1 - FinalSpin0815_s (etaOf theta) (spinOf theta)) -
        0.000706 / (1 - FinalSpin0815_s (etaOf theta) (spinOf theta) + 0.06) ≤
        XAS.dN (1 - FinalSpin0815_s (etaOf theta) (spinOf theta)) / XAS.dD (1 - FinalSpin0815_s (etaOf theta) (spinOf theta)) := by
      rw [le_div_iff₀ hp]
      linarith
    have := (abs_le.1 l3).1
    linarith

/-! ### the three regions -/

/-- the inspiral amplitude is positive up to its transition frequency -/
lemma ins_pos {theta : Theta} {S St a t E R R' : ℝ} (B : Box theta S St a t E R R') {u : ℝ} (hu : 0 ≤ u) (hu' : u ≤ 0.241015) :
    0 < insV theta u :=
  dp_ins _ _ _ _ _ _ _ _ _ _ _ _ _ B.hd B.hx B.hy ⟨hu, hu'⟩ pOf_range B.he rfl rfl rfl rfl rfl rfl rfl

/-- cube root of the inspiral transition frequency -/
lemma exists_u3 : ∃ u : ℝ, 0.241014 ≤ u ∧ u ≤ 0.241015 ∧ u ^ 3 = 0.014 := by
  have h0 : (0 : ℝ) ≤ 0.014 := by norm_num
  have h3 : ((0.014 : ℝ) ^ ((1 : ℝ) / 3)) ^ 3 = 0.014 := by
    rw [← Real.rpow_natCast, ← Real.rpow_mul h0]; norm_num
  have hp : (0 : ℝ) < 0.014 ^ ((1 : ℝ) / 3) := Real.rpow_pos_of_pos (by norm_num) _
  refine ⟨_, ?_, ?_, h3⟩
  · by_contra h
    push Not at h
    have := pow_le_pow_left₀ hp.le h.le 3
    rw [h3] at this
    norm_num at this
  · by_contra h
    push Not at h
    have := pow_le_pow_left₀ (by norm_num) h.le 3
    rw [h3] at this
    norm_num at this

open Classical in
/-- position of the Lorentzian's transition frequency relative to the ringdown frequency -/
lemma f4_pos {q : QNM} (hq : q.Shipped) {theta : Theta} (h : theta.Physical) {tf : TransFreqs}
    (htf : tf = get_transition_frequencies q theta (get_coeffs theta 5) (get_coeffs theta 6)) :
    (1 ≤ get_coeffs theta 5 ∧ tf.f4 * Ms theta - tf.f_RD * Ms theta =
      -(tf.f_damp * Ms theta * get_coeffs theta 6) / get_coeffs theta 5) ∨
    (get_coeffs theta 5 < 1 ∧ tf.f4 * Ms theta - tf.f_RD * Ms theta =
      tf.f_damp * Ms theta * get_coeffs theta 6 * (-1 + sqrt (1 - get_coeffs theta 5 ^ 2)) / get_coeffs theta 5) := by
  obtain ⟨y, z, w, y0, y1, z0, z1, w0, w1, eR, eD⟩ := fRD_fdamp_range hq h
  obtain ⟨-, g2, g3, g3'⟩ := coeffs_range h
  have hM : 0 < Ms theta := by
    have := h.m1_pos
    have := h.m2_pos
    have := gt_pos
    unfold Ms; positivity
  have hf4 : tf.f4 = if get_coeffs theta 5 ≥ 1 then |tf.f_RD + -tf.f_damp * get_coeffs theta 6 / get_coeffs theta 5|
      else |tf.f_RD + tf.f_damp * (-1 + sqrt (1 - get_coeffs theta 5 ^ 2)) * get_coeffs theta 6 / get_coeffs theta 5| := by
    rw [htf]; rfl
  have eR' : tf.f_RD = y * w / Ms theta := by rw [htf, ← eR]; rfl
  have eD' : tf.f_damp = z * w / Ms theta := by rw [htf, ← eD]; rfl
  generalize get_coeffs theta 5 = g at *
  generalize get_coeffs theta 6 = k at *
  norm_num at y0 z0 z1 g2 g3 g3'
  have key : ∀ s, s ≤ 1 → 0 ≤ tf.f_RD - tf.f_damp * k * s := by
    intro s hs
    rw [eR', eD', show y * w / Ms theta - z * w / Ms theta * k * s = w * (y - z * k * s) / Ms theta by ring]
    refine div_nonneg (mul_nonneg (by linarith) ?_) hM.le
    have h1 : z * k ≤ 29 / 2000 * (3 / 2) := mul_le_mul z1 g3' (by linarith) (by norm_num)
    have h2 : 0 < z * k := mul_pos (by linarith) (by linarith)
    nlinarith
  rcases le_or_gt 1 g with hg | hg
  · left
    refine ⟨hg, ?_⟩
    have := key (1 / g) (by rw [div_le_one (by linarith)]; exact hg)
    rw [hf4, if_pos hg, show tf.f_RD + -tf.f_damp * k / g = tf.f_RD - tf.f_damp * k * (1 / g) by ring, abs_of_nonneg this]
    ring
  · right
    refine ⟨hg, ?_⟩
    have hs2 : sqrt (1 - g ^ 2) ^ 2 = 1 - g ^ 2 := sq_sqrt (by nlinarith)
    have hs0 := sqrt_nonneg (1 - g ^ 2)
    have := key ((1 - sqrt (1 - g ^ 2)) / g) (by rw [div_le_one (by linarith)]; nlinarith)
    rw [hf4, if_neg (not_le.2 hg), show tf.f_RD + tf.f_damp * (-1 + sqrt (1 - g ^ 2)) * k / g =
      tf.f_RD - tf.f_damp * k * ((1 - sqrt (1 - g ^ 2)) / g) by ring, abs_of_nonneg this]
    ring

/-- the connecting quartic is positive between the two transition frequencies -/
lemma mid_pos {eps : ℝ} (he : 0 ≤ eps) (he' : eps < 4e-6) {theta : Theta} (h : theta.Physical) (hm : theta.m2 ≤ theta.m1)
    (hd : XAS.dOf theta ≤ 0.961) {tf : TransFreqs}
    (htf : tf = get_transition_frequencies (qnmTable eps) theta (get_coeffs theta 5) (get_coeffs theta 6)) {x : ℝ}
    (hx3 : tf.f3 ≤ x) (hx4 : x ≤ tf.f4) :
    0 < get_IIa_Amp (x * Ms theta) theta (get_coeffs theta) tf.f3 tf.f4 tf.f_RD tf.f_damp := by
  obtain ⟨S, St, a, t, E, R, R', B, hRD, hDM⟩ := ringdown_box he he' h hm hd
  have hq := C93_shipped he he'
  have ord := C74_amplitude_regions_ordered _ hq theta h
  simp only at ord
  rw [← htf] at ord
  obtain ⟨p3, p34, p4R, pR, pd, pg1, pg2, pg3⟩ := ord
  have hf4 := f4_pos hq h htf
  have hM : 0 < Ms theta := by
    have := h.m1_pos
    have := h.m2_pos
    have := gt_pos
    unfold Ms; positivity
  have e3 : tf.f3 * Ms theta = 0.014 := by
    rw [← Ms_eq] at hM ⊢
    rw [show tf.f3 = 0.014 / ((theta.m1 + theta.m2) * gt) by rw [htf]; rfl, div_mul_cancel₀ _ hM.ne']
  have eR : tf.f_RD = (get_fRD_fdamp (qnmTable eps) theta.m1 theta.m2 theta.chi1 theta.chi2).1 := by rw [htf]; rfl
  have eD : tf.f_damp = (get_fRD_fdamp (qnmTable eps) theta.m1 theta.m2 theta.chi1 theta.chi2).2 := by rw [htf]; rfl
  rw [← eR] at hRD
  rw [← eD] at hDM
  -- inspiral end
  obtain ⟨u, u1, u2, u3⟩ := exists_u3
  have hu : 0.241014 ≤ u ∧ u ≤ 0.241015 := ⟨u1, u2⟩
  have u0 : 0 < u := by norm_num at u1; linarith
  have hV := ins_eq theta u0.le
  have hQ := ins_slope theta u0
  rw [u3] at hV hQ
  have V0 := ins_pos B u0.le u2
  have c1 := dp_c1 _ _ _ _ _ _ _ _ _ _ _ _ _ B.hd B.hx B.hy hu pOf_range B.he rfl rfl rfl rfl rfl rfl
    (show insV theta u = _ from rfl)
  have c1' := dp_c1' _ _ _ _ _ _ _ _ _ _ _ _ _ _ _ _ _ _ _ _ B.hd B.hx B.hy hu pOf_range B.he rfl B.hS B.hSt B.ha B.ht B.hE
    rfl rfl rfl rfl rfl (show insV theta u = _ from rfl) (show insQ theta u = _ from rfl) B.hR
  have c2 := dp_c2 _ _ _ _ _ _ _ _ _ _ _ _ _ _ _ _ _ _ _ _ B.hd B.hx B.hy hu pOf_range B.he rfl B.hS B.hSt B.ha B.ht B.hE
    rfl rfl rfl rfl rfl (show insV theta u = _ from rfl) (show insQ theta u = _ from rfl) B.hR
  have c3 := dp_c3 _ _ _ _ _ _ _ _ _ _ _ B.hd B.hx B.hy B.he rfl B.hS B.hSt B.ha B.ht B.hE B.hR'
  change 0 < 16 * cMid (XAS.etaOf theta) (xOf theta) - 5 * insV theta u at c1
  change 0 < 16 * cMid (XAS.etaOf theta) (xOf theta) - 5 * insV theta u - _ at c1'
  change 0 < 16 * cMid (XAS.etaOf theta) (xOf theta) * cG3 (XAS.etaOf theta) (xOf theta) * _ -
    8.2 * cG1 (XAS.etaOf theta) (xOf theta) * _ at c3
  rw [← coeff3] at c1 c1' c3
  rw [← coeff4, ← coeff6] at c3
  have hg2 : get_coeffs theta 5 ≤ 1.02 := by
    have hX := chiPN_range (XAS.etaOf_range h).1.le (XAS.etaOf_range h).2 h.chi1_le h.chi2_le
    rw [← Real.sqrt_eq_rpow] at hX
    have := dp_g2 (XAS.etaOf theta) (xOf theta) (XAS.eta_box h) hX
    rw [← coeff5] at this
    linarith
  have hg3 := (coeffs_range h).2.2.1
  -- abstract the numbers
  set w := tf.f_damp * Ms theta * get_coeffs theta 6 with hw
  have hwlo : 0.005 ≤ w := by
    have h1 : (0.00464 : ℝ) ≤ R' := by
      rw [B.hR']
      obtain ⟨t0, t1⟩ := B.ht0
      have : 0.000706 / (t + 0.06) ≤ 0.0101 - 0.000447 * t := by
        norm_num at t0
        rw [div_le_iff₀ (by norm_num; linarith)]
        norm_num
        nlinarith
      norm_num at this ⊢
      linarith
    have h2 : (0.00457 : ℝ) ≤ tf.f_damp * Ms theta := by
      refine le_trans ?_ hDM
      rw [le_div_iff₀ (by linarith [B.hE1])]
      have := B.hE0
      norm_num at h1 ⊢
      nlinarith
    have h3 := mul_le_mul h2 hg3 (by norm_num) (by norm_num at h2; linarith)
    refine le_trans ?_ h3
    norm_num
  have hw3 : 8.2 * get_coeffs theta 4 / w ≤ 16 * get_coeffs theta 3 := by
    norm_num at hwlo
    rw [div_le_iff₀ (by linarith)]
    have hc3 : 0 < get_coeffs theta 3 := by linarith
    have hE' : 0 < 1 - E := by linarith [B.hE1]
    rw [div_le_iff₀ hE'] at hDM
    have h4 : 16 * get_coeffs theta 3 * get_coeffs theta 6 * (R' - 0.000061) ≤
        16 * get_coeffs theta 3 * get_coeffs theta 6 * (tf.f_damp * Ms theta * (1 - E)) :=
      mul_le_mul_of_nonneg_left hDM (by positivity)
    have h5 : 8.2 * get_coeffs theta 4 * (1 - E) ≤ 16 * get_coeffs theta 3 * w * (1 - E) := by
      rw [hw]; linarith
    exact le_of_mul_le_mul_right h5 hE'
  have h43 : tf.f3 * Ms theta < tf.f4 * Ms theta := mul_lt_mul_of_pos_right p34 hM
  have h4R : tf.f4 * Ms theta ≤ tf.f_RD * Ms theta := mul_le_mul_of_nonneg_right p4R hM.le
  have hR2 : tf.f_RD * Ms theta < 0.2 := by
    rw [Ms_eq, lt_div_iff₀ hM] at pR
    exact pR
  have hh0 : 0 < tf.f4 * Ms theta - 0.014 := by rw [← e3]; linarith
  have hh1 : tf.f4 * Ms theta - 0.014 ≤ (R + 0.0001) / (1 - E) - 0.014 := by linarith
  obtain ⟨l1, l2, l3⟩ := lor_end (h := tf.f4 * Ms theta - 0.014) pg1 pg2 hg2 hwlo hh0.le (by norm_num at hR2 ⊢; linarith) hf4
  -- the quartic
  have ek : theta.m1 * gt + theta.m2 * gt = Ms theta := rfl
  have hdl : deriv (fun y => get_IIb_Amp y theta (get_coeffs theta) tf.f_RD tf.f_damp) (tf.f4 * Ms theta) =
      deriv (lor (get_coeffs theta 4) (get_coeffs theta 5) w) (tf.f4 * Ms theta - tf.f_RD * Ms theta) := by
    have : (fun y => get_IIb_Amp y theta (get_coeffs theta) tf.f_RD tf.f_damp) =
        fun y => lor (get_coeffs theta 4) (get_coeffs theta 5) w (y - tf.f_RD * Ms theta) := by
      funext y
      rw [get_IIb_Amp_eq_lor, ek]
    rw [this, deriv_comp_sub_const]
  have hvl : get_IIb_Amp (tf.f4 * Ms theta) theta (get_coeffs theta) tf.f_RD tf.f_damp =
      lor (get_coeffs theta 4) (get_coeffs theta 5) w (tf.f4 * Ms theta - tf.f_RD * Ms theta) := by
    rw [get_IIb_Amp_eq_lor, ek]
  unfold get_IIa_Amp
  simp only [ek]
  rw [hdl, hvl, show (tf.f3 + tf.f4) / 2 * Ms theta = (tf.f3 * Ms theta + tf.f4 * Ms theta) / 2 by ring, e3, hV]
  rw [e3] at h43
  obtain ⟨s, hs⟩ : ∃ s, s = (x * Ms theta - 0.014) / (tf.f4 * Ms theta - 0.014) := ⟨_, rfl⟩
  have hxs : x * Ms theta = 0.014 + s * (tf.f4 * Ms theta - 0.014) := by
    rw [hs, div_mul_cancel₀ _ hh0.ne']; ring
  have s0 : 0 ≤ s := by
    rw [hs]
    refine div_nonneg ?_ hh0.le
    rw [← e3]
    linarith [mul_le_mul_of_nonneg_right hx3 hM.le]
  have s1 : s ≤ 1 := by
    rw [hs, div_le_one hh0]
    linarith [mul_le_mul_of_nonneg_right hx4 hM.le]
  rw [hxs, delta_hermite h43]
  have hd1 : deriv (fun y => get_inspiral_Amp y theta (get_coeffs theta)) 0.014 = insQ theta u / 0.042 := by
    rw [eq_div_iff (by norm_num)]; linarith
  rw [hd1]
  generalize deriv (lor (get_coeffs theta 4) (get_coeffs theta 5) w) (tf.f4 * Ms theta - tf.f_RD * Ms theta) = D1 at *
  generalize lor (get_coeffs theta 4) (get_coeffs theta 5) w (tf.f4 * Ms theta - tf.f_RD * Ms theta) = V1 at *
  generalize (R + 0.0001) / (1 - E) - 0.014 = gh at *
  generalize tf.f4 * Ms theta - 0.014 = g at *
  generalize insQ theta u = Q at *
  generalize insV theta u = V at *
  have hQ1 : Q * (gh / 0.042) = gh * (Q / 0.042) := by ring
  rw [hQ1] at c1' c2
  generalize Q / 0.042 = P at *
  refine hermite_pos V0 (by linarith) l1 ?_ (by linarith) ?_ l2 (by linarith) s0 s1
  · rcases le_total 0 P with hP | hP
    · have := mul_nonneg hh0.le hP
      linarith
    · have := mul_le_mul_of_nonpos_right hh1 hP
      linarith
  · rcases le_total 0 P with hP | hP
    · have := mul_le_mul_of_nonneg_right hh1 hP
      linarith
    · have := mul_nonpos_of_nonneg_of_nonpos hh0.le hP
      linarith

/-- the amplitude is positive below any cut threshold -/
lemma ampAt_pos {eps : ℝ} (he : 0 ≤ eps) (he' : eps < 4e-6) {theta : Theta} (h : theta.Physical) (hm : theta.m2 ≤ theta.m1)
    (hd : XAS.dOf theta ≤ 0.961) {D thr x : ℝ} (hD : 0 < D) (h0 : 0 < x) (ht : x < thr) :
    0 < ampAt theta (get_coeffs theta)
      (get_transition_frequencies (qnmTable eps) theta (get_coeffs theta 5) (get_coeffs theta 6)) D thr x := by
  obtain ⟨tf, htf⟩ : ∃ tf, tf = get_transition_frequencies (qnmTable eps) theta (get_coeffs theta 5) (get_coeffs theta 6) :=
    ⟨_, rfl⟩
  rw [← htf]
  have ord := C74_amplitude_regions_ordered _ (C93_shipped he he') theta h
  simp only at ord
  rw [← htf] at ord
  obtain ⟨p3, p34, -, -, pd, pg1, -, pg3⟩ := ord
  have m1 := h.m1_pos
  have m2 := h.m2_pos
  have hg := gt_pos
  have hM : 0 < Ms theta := by unfold Ms; positivity
  have hmp := m_per_Mpc_pos
  have hC := C_pos
  have hp := PI_pos
  have hA : 0 < get_Amp0 (x * Ms theta) (theta.m1 * gt * (theta.m2 * gt) / Ms theta ^ 2) := by
    unfold get_Amp0
    simp only
    positivity
  have hIIb : 0 < get_IIb_Amp (x * Ms theta) theta (get_coeffs theta) tf.f_RD tf.f_damp := by
    unfold get_IIb_Amp
    simp only
    have : 0 < tf.f_damp * (theta.m1 * gt + theta.m2 * gt) * get_coeffs theta 6 := by positivity
    positivity
  have e3 : tf.f3 * Ms theta = 0.014 := by
    have hM' := hM
    rw [← Ms_eq] at hM' ⊢
    rw [show tf.f3 = 0.014 / ((theta.m1 + theta.m2) * gt) by rw [htf]; rfl, div_mul_cancel₀ _ hM'.ne']
  have hIns : x ≤ tf.f3 → 0 < get_inspiral_Amp (x * Ms theta) theta (get_coeffs theta) := by
    intro hx
    obtain ⟨S, St, a, t, E, R, R', B, -⟩ := ringdown_box he he' h hm hd
    have hx0 : 0 < x * Ms theta := mul_pos h0 hM
    have hc : ((x * Ms theta) ^ ((1 : ℝ) / 3)) ^ 3 = x * Ms theta := by
      rw [← Real.rpow_natCast, ← Real.rpow_mul hx0.le]; norm_num
    have hc0 : 0 < (x * Ms theta) ^ ((1 : ℝ) / 3) := Real.rpow_pos_of_pos hx0 _
    rw [← hc, ins_eq theta hc0.le]
    refine ins_pos B hc0.le ?_
    by_contra hlt
    push Not at hlt
    have h1 := pow_le_pow_left₀ (by norm_num) hlt.le 3
    rw [hc] at h1
    have h2 := mul_le_mul_of_nonneg_right hx hM.le
    rw [e3] at h2
    norm_num at h1 h2
    linarith
  have hMid : tf.f3 ≤ x → x ≤ tf.f4 → 0 < get_IIa_Amp (x * Ms theta) theta (get_coeffs theta) tf.f3 tf.f4 tf.f_RD tf.f_damp :=
    fun a b => mid_pos he he' h hm hd htf a b
  unfold ampAt
  rw [Jnp.heaviside_pos (x := thr - x) (by linarith)]
  refine div_pos (mul_pos (mul_pos (by positivity) ?_) (by positivity)) (by positivity)
  generalize get_IIa_Amp (x * Ms theta) theta (get_coeffs theta) tf.f3 tf.f4 tf.f_RD tf.f_damp = v2 at *
  generalize get_inspiral_Amp (x * Ms theta) theta (get_coeffs theta) = v1 at *
  generalize get_IIb_Amp (x * Ms theta) theta (get_coeffs theta) tf.f_RD tf.f_damp = v3 at *
  rcases lt_trichotomy x tf.f3 with hx | hx | hx
  · rw [Jnp.heaviside_pos (x := tf.f3 - x) (by linarith), Jnp.heaviside_neg (x := x - tf.f3) (by linarith),
      Jnp.heaviside_neg (x := x - tf.f4) (by linarith)]
    have := hIns hx.le
    linarith
  · have a1 := hIns hx.le
    have a2 := hMid hx.ge (by linarith)
    rw [show tf.f3 - x = 0 by linarith, show x - tf.f3 = 0 by linarith, Jnp.heaviside_zero,
      Jnp.heaviside_pos (x := tf.f4 - x) (by linarith), Jnp.heaviside_neg (x := x - tf.f4) (by linarith)]
    linarith
  · rw [Jnp.heaviside_neg (x := tf.f3 - x) (by linarith), Jnp.heaviside_pos (x := x - tf.f3) (by linarith)]
    rcases lt_trichotomy x tf.f4 with hx' | hx' | hx'
    · have a2 := hMid hx.le hx'.le
      rw [Jnp.heaviside_pos (x := tf.f4 - x) (by linarith), Jnp.heaviside_neg (x := x - tf.f4) (by linarith)]
      linarith
    · have a2 := hMid hx.le hx'.le
      rw [show tf.f4 - x = 0 by linarith, show x - tf.f4 = 0 by linarith, Jnp.heaviside_zero]
      linarith
    · rw [Jnp.heaviside_neg (x := tf.f4 - x) (by linarith), Jnp.heaviside_pos (x := x - tf.f4) (by linarith)]
      linarith

end PhenomD
end Ripple

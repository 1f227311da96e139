/-
  The IMRPhenomXAS amplitude where the fitted peak of the ringdown is negative: the denominator polynomial of the
  intermediate region changes its sign.
-/
import Verif.Proofs.XASPos
import Verif.Proofs.XASSpin

namespace Ripple
namespace XAS
open Real Set

/-! ### numerical bounds at very small mass ratio and strongly anti-aligned primary spin -/

lemma po_v (d x y e St k : ℝ) (hd : 0.9998 ≤ d ∧ d ≤ 1) (hx : -1 ≤ x ∧ x ≤ -0.99) (hy : -1 ≤ y ∧ y ≤ 1)
    (he : e = (1 - d ^ 2) / 4) (hSt : St = ((1 + d) ^ 2 * x + (1 - d) ^ 2 * y) / (2 * (1 + d ^ 2))) (hk : k = (x - y) * d) :
    0 < -spV e St k := by
  unfold spV
  affine_bnb [hd, hx, hy] [he, hSt, hk]

lemma po_a (d x y e St k z a : ℝ) (hd : 0.9998 ≤ d ∧ d ≤ 1) (hx : -1 ≤ x ∧ x ≤ -0.99) (hy : -1 ≤ y ∧ y ≤ 1)
    (he : e = (1 - d ^ 2) / 4)
    (hSt : St = ((1 + d) ^ 2 * x + (1 - d) ^ 2 * y) / (2 * (1 + d ^ 2)))
    (hk : k = (x - y) * d) (hz : z = (x - y) ^ 2) (ha : a = St + e * spinG e St k z) :
    0 < -0.97 - a := by
  unfold spinG sK sn1 sn2 sn3 skk sD at ha
  affine_bnb [hd, hx, hy] [he, hSt, hk, hz, ha]

lemma po_ins (d x y v p e S k f2 A3 A4 A5 A6 : ℝ) (hd : 0.9998 ≤ d ∧ d ≤ 1) (hx : -1 ≤ x ∧ x ≤ -0.99) (hy : -1 ≤ y ∧ y ≤ 1)
    (hv : 0 ≤ v ∧ v ≤ 0.363) (hp : 3.14159 ≤ p ∧ p ≤ 3.1416) (he : e = (1 - d ^ 2) / 4)
    (hS : S = (0.5 * (1 + d) * x + 0.5 * (1 - d) * y - 38 / 113 * e * (x + y)) / (1 - 76 * e / 113))
    (hk : k = (x - y) * d) (h2 : f2 = spF2 e S k)
    (hA3 : A3 = spA3 e d x y) (hA4 : A4 = spA4 e d x y) (hA5 : A5 = spA5 e d x y p) (hA6 : A6 = spA6 e d x y p) :
    0 < 1 + v ^ 2 * ((-969 + 1804 * e) / 672 + v * (A3 + v * (A4 + v * (A5 + v * A6)))) + f2 := by
  unfold spF2 at h2
  unfold spA3 at hA3
  unfold spA4 at hA4
  unfold spA5 at hA5
  unfold spA6 at hA6
  affine_bnb [hd, hx, hy, hv, hp] [he, hS, hk, h2, hA3, hA4, hA5, hA6]

/-! ### signs at the two transition frequencies -/

lemma po_d {theta : Theta} (h : theta.Physical) (hq : 10000 * theta.m2 ≤ theta.m1) : 0.9998 ≤ dOf theta ∧ dOf theta ≤ 1 := by
  obtain ⟨d0, d1, hd⟩ := dOf_range h
  refine ⟨?_, d1.le⟩
  have hg := gt_pos
  have a1 := h.m1_pos
  have a2 := h.m2_pos
  have he : XAS.etaOf theta ≤ 10000 / 10001 ^ 2 := by
    unfold XAS.etaOf
    rw [div_le_div_iff₀ (by positivity) (by norm_num)]
    have h1 : 0 ≤ (theta.m1 - 10000 * theta.m2) * (10000 * theta.m1 - theta.m2) :=
      mul_nonneg (by linarith) (by linarith)
    have := mul_nonneg h1 (sq_nonneg gt)
    linarith
  by_contra hlt
  push Not at hlt
  norm_num at hlt he
  nlinarith

lemma po_ins_pos {theta : Theta} (h : theta.Physical) (hq : 10000 * theta.m2 ≤ theta.m1) (hx1 : theta.chi1 ≤ -0.99) :
    0 < get_inspiral_Amp (ampMatchIN theta) theta PhenomX_amp_coeff_table := by
  obtain ⟨-, -, -, ⟨hF1, -, -, -⟩, -, -, -⟩ := C92_regions_ordered theta h
  have hF1' : 0 < ampMatchIN theta := by norm_num at hF1; linarith
  have hd := po_d h hq
  have hx : -1 ≤ theta.chi1 ∧ theta.chi1 ≤ -0.99 := ⟨(abs_le.1 h.chi1_le).1, hx1⟩
  have hy := abs_le.1 h.chi2_le
  have he := (dOf_range h).2.2
  have hpi : (3.14159 : ℝ) ≤ π ∧ π ≤ (3.1416 : ℝ) := ⟨by linarith [Real.pi_gt_d6], by linarith [Real.pi_lt_d4]⟩
  have ha := po_a (dOf theta) theta.chi1 theta.chi2 (etaOf theta) (stotOf theta) _ _ (spinOf theta) hd hx hy he sp_stot rfl rfl
    (spinOf_eq h)
  obtain ⟨c, hc, hc3, hceq⟩ := cube_root hF1'
  obtain ⟨p, hp, hp3, hpeq⟩ := cube_root Real.pi_pos
  have hv3 : (p * c) ^ 3 = π * ampMatchIN theta := by rw [mul_pow, hp3, hc3]
  have hv0 : 0 < p * c := by positivity
  have hIN : π * ampMatchIN theta = 0.75 * π * fMECOof (etaOf theta) (dOf theta) (chipnOf theta) (theta.chi1 - theta.chi2)
      + 0.25 * (π * fISCOof (spinOf theta)) := by
    change π * (fMECOof (etaOf theta) (dOf theta) (chipnOf theta) (theta.chi1 - theta.chi2) + 0.25 * (fISCOof (spinOf theta) -
      fMECOof (etaOf theta) (dOf theta) (chipnOf theta) (theta.chi1 - theta.chi2))) = _
    ring
  have hvhi : p * c ≤ 0.363 := by
    have ha' : spinOf theta ≤ -0.97 := by linarith
    obtain ⟨-, i2⟩ := isco_tight (spin_gt h).le (by norm_num at ha' ⊢; linarith)
    have m2 := meco_hi h
    have e1 : 0.026 / (1 - 0.67 * spinOf theta) ≤ 0.026 / (1 - 0.67 * -0.97) := by
      refine div_le_div_of_nonneg_left (by norm_num) (by norm_num) (by linarith)
    have e2 : 0.00416 / (1 - spinOf theta + 0.022) ≤ 0.00416 / (1 - -0.97 + 0.022) := by
      refine div_le_div_of_nonneg_left (by norm_num) (by norm_num) (by linarith)
    have e3 : 0.087 / (1 - spinOf theta + 0.35) ≤ 0.087 / (1 - -0.97 + 0.35) := by
      refine div_le_div_of_nonneg_left (by norm_num) (by norm_num) (by linarith)
    have hm0 := meco_lo h
    by_contra hlt
    push Not at hlt
    have h3 := pow_lt_pow_left₀ hlt (by norm_num) (three_ne_zero)
    rw [hv3, hIN] at h3
    generalize fMECOof (etaOf theta) (dOf theta) (chipnOf theta) (theta.chi1 - theta.chi2) = M at *
    generalize π * fISCOof (spinOf theta) = I at *
    have k2 : π * M ≤ 3.1416 * M := mul_le_mul_of_nonneg_right hpi.2 (by norm_num at hm0; linarith)
    norm_num at *
    linarith
  obtain ⟨r0, r1, r2, hins, hcol⟩ := ins_w theta PhenomX_amp_coeff_table hF1' hc hc3.symm
  obtain ⟨f2, hf2⟩ : ∃ f, f = spF2 (etaOf theta) (chipnOf theta) ((theta.chi1 - theta.chi2) * dOf theta) := ⟨_, rfl⟩
  have q2 : r0 + r1 + r2 = f2 := by
    have := hcol 2 1 one_pos (by simp)
    rw [sp_values, ← hf2] at this
    simpa using this
  obtain ⟨b2, b3, b4, b5, b6⟩ := sp_PNcoeffs theta
  have e2 := pow_thirds Real.pi_pos hpeq 2
  have e4 := pow_thirds Real.pi_pos hpeq 4
  have e5 := pow_thirds Real.pi_pos hpeq 5
  push_cast at e2 e4 e5
  obtain ⟨A3, hA3⟩ : ∃ A, A = spA3 (etaOf theta) (dOf theta) theta.chi1 theta.chi2 := ⟨_, rfl⟩
  obtain ⟨A4, hA4⟩ : ∃ A, A = spA4 (etaOf theta) (dOf theta) theta.chi1 theta.chi2 := ⟨_, rfl⟩
  obtain ⟨A5, hA5⟩ : ∃ A, A = spA5 (etaOf theta) (dOf theta) theta.chi1 theta.chi2 π := ⟨_, rfl⟩
  obtain ⟨A6, hA6⟩ : ∃ A, A = spA6 (etaOf theta) (dOf theta) theta.chi1 theta.chi2 π := ⟨_, rfl⟩
  rw [e2] at b2
  rw [← hA3, ← hp3] at b3
  rw [← hA4, e4] at b4
  rw [← hA5, e5] at b5
  rw [← hA6, show π ^ 2 = p ^ 6 by rw [← hp3]; ring] at b6
  have key := po_ins (dOf theta) theta.chi1 theta.chi2 (p * c) π (etaOf theta) (chipnOf theta) _ f2 A3 A4 A5 A6 hd hx hy
    ⟨hv0.le, hvhi⟩ hpi he rfl rfl hf2 hA3 hA4 hA5 hA6
  have h1 := hins 1 one_pos
  rw [b2, b3, b4, b5, b6, show (inspiral_Amp_PN theta).A0 = 1 from rfl] at h1
  have e : ampMatchIN theta * 1 ^ 3 = ampMatchIN theta := by ring
  rw [e] at h1
  rw [h1, ← sub_pos]
  rw [← q2] at key
  refine lt_of_lt_of_eq key ?_
  ring

lemma po_rd_neg {theta : Theta} (h : theta.Physical) (hq : 10000 * theta.m2 ≤ theta.m1) (hx1 : theta.chi1 ≤ -0.99) :
    (ringdown_Amp_fits theta PhenomX_amp_coeff_table).2.2 < 0 := by
  rw [sp_v1RD]
  have := po_v (dOf theta) theta.chi1 theta.chi2 (etaOf theta) (stotOf theta) _ (po_d h hq) ⟨(abs_le.1 h.chi1_le).1, hx1⟩
    (abs_le.1 h.chi2_le) (dOf_range h).2.2 sp_stot rfl
  linarith

/-! ### the sign change makes the amplitude unbounded -/

/-- values of the denominator polynomial at the two ends of the intermediate region -/
lemma quartic_ends {theta : Theta} (h : theta.Physical) :
    quartic (intermediate_Amp_coeffs theta PhenomX_amp_coeff_table (ampPeak theta PhenomX_amp_coeff_table)) (ampMatchIN theta) =
      1 / (ampMatchIN theta ^ (-((7 : ℝ) / 6)) * get_inspiral_Amp (ampMatchIN theta) theta PhenomX_amp_coeff_table) ∧
    quartic (intermediate_Amp_coeffs theta PhenomX_amp_coeff_table (ampPeak theta PhenomX_amp_coeff_table))
      (ampPeak theta PhenomX_amp_coeff_table) =
      1 / (ampPeak theta PhenomX_amp_coeff_table ^ (-((7 : ℝ) / 6)) * (ringdown_Amp_fits theta PhenomX_amp_coeff_table).2.2) := by
  obtain ⟨-, -, -, ⟨hF1, hF, hF4, -⟩, hd, hg2, hg3⟩ := C92_regions_ordered theta h
  have hw : (get_cutoff_fMs theta.m1 theta.m2 theta.chi1 theta.chi2).fdamp *
      (ringdown_Amp_fits theta PhenomX_amp_coeff_table).2.1 ≠ 0 := (mul_pos hd hg3).ne'
  rw [← rd_Amp_peak theta PhenomX_amp_coeff_table hw]
  have k12 : ampMatchIN theta ≠ ampMatchIN theta + 1 / 2 * (ampPeak theta PhenomX_amp_coeff_table - ampMatchIN theta) := by
    intro h; linarith
  have k24 : ampMatchIN theta + 1 / 2 * (ampPeak theta PhenomX_amp_coeff_table - ampMatchIN theta) ≠
      ampPeak theta PhenomX_amp_coeff_table := by
    intro h; linarith
  exact ⟨q_value1 _ _ _ _ _ k12 hF.ne k24, q_value4 _ _ _ _ _ k12 hF.ne k24⟩

/-- between the transition frequencies the amplitude is a constant over the denominator polynomial -/
lemma Amp_between {theta : Theta} (h : theta.Physical) {D x : ℝ} (h1 : ampMatchIN theta < x)
    (h2 : x < ampPeak theta PhenomX_amp_coeff_table) :
    Amp (x / PhenomD.Ms theta) theta PhenomX_amp_coeff_table D = ampUnit theta D /
      quartic (intermediate_Amp_coeffs theta PhenomX_amp_coeff_table (ampPeak theta PhenomX_amp_coeff_table)) x := by
  obtain ⟨-, -, -, ⟨hF1, -, -, -⟩, -, -, -⟩ := C92_regions_ordered theta h
  have := h.m1_pos
  have := h.m2_pos
  have := gt_pos
  have hM : 0 < PhenomD.Ms theta := by unfold PhenomD.Ms; positivity
  have hx : 0 < x := by norm_num at hF1; linarith
  have e : x / PhenomD.Ms theta * PhenomD.Ms theta = x := div_mul_cancel₀ _ hM.ne'
  rw [Amp_eq, e, int_Amp_eq, Jnp.heaviside_neg (x := ampMatchIN theta - x) (by linarith),
    Jnp.heaviside_pos (x := x - ampMatchIN theta) (by linarith),
    Jnp.heaviside_pos (x := ampPeak theta PhenomX_amp_coeff_table - x) (by linarith),
    Jnp.heaviside_neg (x := x - ampPeak theta PhenomX_amp_coeff_table) (by linarith)]
  have : x ^ ((7 : ℝ) / 6) * x ^ (-((7 : ℝ) / 6)) = 1 := by rw [← Real.rpow_add hx]; norm_num
  generalize quartic _ x = Q at *
  generalize x ^ ((7 : ℝ) / 6) = u at *
  generalize x ^ (-((7 : ℝ) / 6)) = w at *
  simp only [mul_zero, zero_mul, zero_add, add_zero, mul_one, one_mul]
  rw [mul_assoc, div_mul_eq_mul_div, this, mul_one_div]

/-- a continuous function which changes its sign has reciprocals of any size and sign -/
lemma recip_unbounded {q : ℝ → ℝ} {a b U : ℝ} (hab : a < b) (hq : ContinuousOn q (Icc a b)) (ha : 0 < q a) (hb : q b < 0)
    (hU : 0 < U) (B : ℝ) : (∃ x, a < x ∧ x < b ∧ B < U / q x) ∧ (∃ x, a < x ∧ x < b ∧ U / q x < -B) := by
  have hB : 0 < |B| + 1 := by positivity
  have hlt := lt_add_one |B|
  have hle := le_abs_self B
  constructor
  · have e0 : 0 < min (q a / 2) (U / (|B| + 1)) := lt_min (by linarith) (by positivity)
    have e1 : min (q a / 2) (U / (|B| + 1)) < q a := (min_le_left _ _).trans_lt (by linarith)
    have e2 := min_le_right (q a / 2) (U / (|B| + 1))
    generalize min (q a / 2) (U / (|B| + 1)) = ε at *
    obtain ⟨x, ⟨x1, x2⟩, hx⟩ := intermediate_value_Icc' hab.le hq ⟨by linarith, e1.le⟩
    refine ⟨x, x1.lt_of_ne ?_, x2.lt_of_ne ?_, ?_⟩
    · rintro rfl; linarith
    · rintro rfl; linarith
    · rw [hx, lt_div_iff₀ e0]
      rw [le_div_iff₀ hB] at e2
      nlinarith
  · have e0 : 0 < min (-q b / 2) (U / (|B| + 1)) := lt_min (by linarith) (by positivity)
    have e1 : min (-q b / 2) (U / (|B| + 1)) < -q b := (min_le_left _ _).trans_lt (by linarith)
    have e2 := min_le_right (-q b / 2) (U / (|B| + 1))
    generalize min (-q b / 2) (U / (|B| + 1)) = ε at *
    obtain ⟨x, ⟨x1, x2⟩, hx⟩ := intermediate_value_Icc' hab.le hq ⟨show q b ≤ -ε by linarith, show -ε ≤ q a by linarith⟩
    refine ⟨x, x1.lt_of_ne ?_, x2.lt_of_ne ?_, ?_⟩
    · rintro rfl; linarith
    · rintro rfl; linarith
    · rw [hx, div_neg, neg_lt_neg_iff, lt_div_iff₀ e0]
      rw [le_div_iff₀ hB] at e2
      nlinarith

lemma quartic_continuous (c : Fin 5 → ℝ) : Continuous (quartic c) := by
  unfold quartic
  fun_prop

/-- the amplitude takes values of any size and both signs when the inspiral and ringdown ends have opposite signs -/
lemma amp_unbounded {theta : Theta} (h : theta.Physical)
    (hi : 0 < get_inspiral_Amp (ampMatchIN theta) theta PhenomX_amp_coeff_table)
    (hv : (ringdown_Amp_fits theta PhenomX_amp_coeff_table).2.2 < 0) {D : ℝ} (hD : 0 < D) (B : ℝ) :
    (∃ f, 0 < f ∧ f * PhenomD.Ms theta < 0.3 ∧ B < Amp f theta PhenomX_amp_coeff_table D) ∧
    (∃ f, 0 < f ∧ f * PhenomD.Ms theta < 0.3 ∧ Amp f theta PhenomX_amp_coeff_table D < -B) := by
  obtain ⟨-, -, -, ⟨hF1, hF, hF4, hF5⟩, -, -, -⟩ := C92_regions_ordered theta h
  have hF1' : 0 < ampMatchIN theta := by norm_num at hF1; linarith
  have := h.m1_pos
  have := h.m2_pos
  have := gt_pos
  have hM : 0 < PhenomD.Ms theta := by unfold PhenomD.Ms; positivity
  obtain ⟨q1, q4⟩ := quartic_ends h
  obtain ⟨⟨x, x1, x2, x3⟩, ⟨y, y1, y2, y3⟩⟩ := recip_unbounded (U := ampUnit theta D) hF
    (quartic_continuous (intermediate_Amp_coeffs theta PhenomX_amp_coeff_table (ampPeak theta PhenomX_amp_coeff_table))).continuousOn
    (by rw [q1]; exact one_div_pos.2 (mul_pos (Real.rpow_pos_of_pos hF1' _) hi))
    (by rw [q4]; exact one_div_neg.2 (mul_neg_of_pos_of_neg (Real.rpow_pos_of_pos (hF1'.trans hF) _) hv))
    (ampUnit_pos h hD) B
  rw [← Amp_between h x1 x2] at x3
  rw [← Amp_between h y1 y2] at y3
  refine ⟨⟨_, div_pos (hF1'.trans x1) hM, ?_, x3⟩, ⟨_, div_pos (hF1'.trans y1) hM, ?_, y3⟩⟩
  · rw [div_mul_cancel₀ _ hM.ne']; linarith
  · rw [div_mul_cancel₀ _ hM.ne']; linarith

end XAS
end Ripple

/-
  Helper lemmas about the sign of the IMRPhenomXAS amplitude: the connection quartic in Hermite form, the inspiral
  amplitude as a polynomial in the cube root of frequency, and a sufficient condition for the whole amplitude to be
  positive and C¹.
-/
import Verif.Props.XASPhys

namespace Ripple
namespace XAS
open Real Set

/-! ### the connection quartic -/

/-- the connection quartic with its middle node halfway, in terms of the position `s` between the outer nodes -/
lemma quartic_hermite {F1 h : ℝ} (hh : h ≠ 0) (V1 V2 V4 d1 d4 s : ℝ) :
    quartic (intermediate_Amp_delta F1 (F1 + 1 / 2 * (F1 + h - F1)) (F1 + h) V1 V2 V4 d1 d4) (F1 + s * h) =
      (1 - s) ^ 2 * (1 - 2 * s) * (V1 * (1 + 4 * s) + h * d1 * s) + 16 * s ^ 2 * (1 - s) ^ 2 * V2
        + s ^ 2 * (2 * s - 1) * (V4 * (5 - 4 * s) - h * d4 * (1 - s)) := by
  have e2 : F1 - (F1 + h) = -h := by ring
  unfold quartic intermediate_Amp_delta
  simp [e2]
  field_simp
  ring

/-- a sufficient condition for the quartic to be positive between the outer nodes -/
lemma hermite_pos {V1 V2 V4 p q s : ℝ} (h1 : 0 < V1) (h2 : 0 < V2) (h4 : 0 < V4) (hp : 0 ≤ p) (hpV : 5 * V1 + p ≤ 16 * V2)
    (hq : 0 ≤ q) (hq4 : q ≤ 6 * V4) (hqV : 5 * V4 ≤ 16 * V2) (s0 : 0 ≤ s) (s1 : s ≤ 1) :
    0 < (1 - s) ^ 2 * (1 - 2 * s) * (V1 * (1 + 4 * s) + p * s) + 16 * s ^ 2 * (1 - s) ^ 2 * V2
        + s ^ 2 * (2 * s - 1) * (V4 * (5 - 4 * s) - q * (1 - s)) := by
  rcases le_total s (1 / 2) with hs | hs
  · -- left half: the ringdown term is the only negative one
    have a1 : 0 ≤ (1 - s) ^ 2 * (1 - 2 * s) * (p * s) := by
      refine mul_nonneg (mul_nonneg (sq_nonneg _) (by linarith)) (mul_nonneg hp s0)
    have a2 : 0 ≤ s ^ 2 * (1 - 2 * s) * (q * (1 - s)) := by
      refine mul_nonneg (mul_nonneg (sq_nonneg _) (by linarith)) (mul_nonneg hq (by linarith))
    have a3 : s ^ 2 * (1 - s) ^ 2 * (5 * V4) ≤ s ^ 2 * (1 - s) ^ 2 * (16 * V2) :=
      mul_le_mul_of_nonneg_left hqV (by positivity)
    have a4 : 0 ≤ s ^ 2 * V4 * (5 * (1 - s) ^ 2 - (1 - 2 * s) * (5 - 4 * s)) := by
      have : 5 * (1 - s) ^ 2 - (1 - 2 * s) * (5 - 4 * s) = s * (4 - 3 * s) := by ring
      rw [this]
      exact mul_nonneg (by positivity) (mul_nonneg s0 (by linarith))
    rcases hs.lt_or_eq with hlt | heq
    · have a5 : 0 < (1 - s) ^ 2 * (1 - 2 * s) * (V1 * (1 + 4 * s)) := by
        refine mul_pos (mul_pos (by nlinarith) (by linarith)) (mul_pos h1 (by linarith))
      nlinarith
    · subst heq
      norm_num
      linarith
  · -- right half: the inspiral term is the only negative one
    have a1 : (1 - s) ^ 2 * s ^ 2 * (5 * V1 + p) ≤ (1 - s) ^ 2 * s ^ 2 * (16 * V2) :=
      mul_le_mul_of_nonneg_left hpV (by positivity)
    have a2 : 0 ≤ (1 - s) ^ 2 * V1 * (5 * s ^ 2 - (2 * s - 1) * (1 + 4 * s)) := by
      have : 5 * s ^ 2 - (2 * s - 1) * (1 + 4 * s) = (1 - s) * (1 + 3 * s) := by ring
      rw [this]
      exact mul_nonneg (by positivity) (mul_nonneg (by linarith) (by linarith))
    have a3 : 0 ≤ (1 - s) ^ 2 * p * s * (s - (2 * s - 1)) :=
      mul_nonneg (mul_nonneg (mul_nonneg (sq_nonneg _) hp) s0) (by linarith)
    have a4 : 0 ≤ V4 * (5 - 4 * s) - q * (1 - s) := by
      have : q * (1 - s) ≤ 6 * V4 * (1 - s) := mul_le_mul_of_nonneg_right hq4 (by linarith)
      nlinarith
    rcases hs.lt_or_eq with hlt | heq
    · have a5 : 0 < s ^ 2 * (2 * s - 1) * (V4 * (2 * s - 1)) := by
        refine mul_pos (mul_pos (by nlinarith) (by linarith)) (mul_pos h4 (by linarith))
      have a6 : s ^ 2 * (2 * s - 1) * (V4 * (2 * s - 1)) ≤ s ^ 2 * (2 * s - 1) * (V4 * (5 - 4 * s) - q * (1 - s)) := by
        refine mul_le_mul_of_nonneg_left ?_ (mul_nonneg (sq_nonneg _) (by linarith))
        have : q * (1 - s) ≤ 6 * V4 * (1 - s) := mul_le_mul_of_nonneg_right hq4 (by linarith)
        linarith
      nlinarith
    · rw [← heq]
      norm_num
      linarith

/-! ### the inspiral amplitude as a function of the cube root of frequency -/

/-- the inspiral amplitude at `F1 w³`: the post-Newtonian part plus the interpolating pseudo-PN part -/
lemma ins_w (theta : Theta) (A : Table) (hF : 0 < ampMatchIN theta) {c : ℝ} (hc : 0 < c) (hcF : ampMatchIN theta = c ^ 3) :
    ∃ r0 r1 r2 : ℝ,
      (∀ w : ℝ, 0 < w → get_inspiral_Amp (ampMatchIN theta * w ^ 3) theta A =
        (inspiral_Amp_PN theta).A0 + (inspiral_Amp_PN theta).A2 * (c * w) ^ 2 + (inspiral_Amp_PN theta).A3 * (c * w) ^ 3
        + (inspiral_Amp_PN theta).A4 * (c * w) ^ 4 + (inspiral_Amp_PN theta).A5 * (c * w) ^ 5
        + (inspiral_Amp_PN theta).A6 * (c * w) ^ 6 + w ^ 7 * (r0 + r1 * w + r2 * w ^ 2)) ∧
      (∀ (i : Fin 3) (W : ℝ), 0 < W → W ^ 3 = ![0.5, 0.75, 1] i →
        W ^ 7 * (r0 + r1 * W + r2 * W ^ 2) = inspiral_Amp_values theta A i) := by
  obtain ⟨R, hR⟩ : ∃ R, R = inspiral_Amp_rho (inspiral_Amp_nodes theta) (inspiral_Amp_values theta A) := ⟨_, rfl⟩
  have hpow : ∀ {w : ℝ}, 0 < w → ∀ k : ℕ, (c ^ 3 * w ^ 3) ^ ((k : ℝ) / 3) = (c * w) ^ k := by
    intro w hw k
    rw [← mul_pow, ← Real.rpow_natCast, ← Real.rpow_mul (by positivity), ← Real.rpow_natCast]
    congr 1
    push_cast
    ring
  refine ⟨R 0 * c ^ 7, R 1 * c ^ 8, R 2 * c ^ 9, ?_, ?_⟩
  · intro w hw
    have e2 := hpow hw 2
    have e4 := hpow hw 4
    have e5 := hpow hw 5
    have e7 := hpow hw 7
    have e8 := hpow hw 8
    push_cast at e2 e4 e5 e7 e8
    unfold get_inspiral_Amp
    simp only
    rw [← hR, hcF, e2, e4, e5, e7, e8]
    ring
  · intro i W hW hW3
    have hn : inspiral_Amp_nodes theta i = c ^ 3 * W ^ 3 := by
      rw [hW3, ← hcF]
      unfold inspiral_Amp_nodes
      fin_cases i <;> simp <;> ring
    have hpos : ∀ i, 0 < inspiral_Amp_nodes theta i := by
      intro i
      unfold inspiral_Amp_nodes
      fin_cases i <;> simp <;> linarith
    have hinj : Function.Injective (inspiral_Amp_nodes theta) := by
      intro i j hij
      unfold inspiral_Amp_nodes at hij
      fin_cases i <;> fin_cases j <;> first | rfl | (exfalso; simp at hij; linarith) |
        (exfalso; simp at hij; rcases hij with h | h; exact absurd h (by norm_num); linarith)
    have key := rho_colloc (inspiral_Amp_values theta A) hpos hinj i
    have e7 := hpow hW 7
    have e8 := hpow hW 8
    push_cast at e7 e8
    rw [← hR, hn, e7, e8] at key
    rw [← key]
    ring

/-- logarithmic slope of the inspiral amplitude at the end of its region -/
lemma ins_logslope (theta : Theta) (A : Table) (hF : 0 < ampMatchIN theta) {c r0 r1 r2 : ℝ}
    (h : ∀ w : ℝ, 0 < w → get_inspiral_Amp (ampMatchIN theta * w ^ 3) theta A =
        (inspiral_Amp_PN theta).A0 + (inspiral_Amp_PN theta).A2 * (c * w) ^ 2 + (inspiral_Amp_PN theta).A3 * (c * w) ^ 3
        + (inspiral_Amp_PN theta).A4 * (c * w) ^ 4 + (inspiral_Amp_PN theta).A5 * (c * w) ^ 5
        + (inspiral_Amp_PN theta).A6 * (c * w) ^ 6 + w ^ 7 * (r0 + r1 * w + r2 * w ^ 2)) :
    3 * (ampMatchIN theta * deriv (fun x => get_inspiral_Amp x theta A) (ampMatchIN theta)) =
      2 * (inspiral_Amp_PN theta).A2 * c ^ 2 + 3 * (inspiral_Amp_PN theta).A3 * c ^ 3
        + 4 * (inspiral_Amp_PN theta).A4 * c ^ 4 + 5 * (inspiral_Amp_PN theta).A5 * c ^ 5
        + 6 * (inspiral_Amp_PN theta).A6 * c ^ 6 + 7 * (r0 + r1 + r2) + r1 + 2 * r2 := by
  have hd : DifferentiableAt ℝ (fun x => get_inspiral_Amp x theta A) (ampMatchIN theta) :=
    (cd_ins_Amp theta A hF).differentiableAt (by norm_num)
  have h1 : HasDerivAt (fun w : ℝ => ampMatchIN theta * w ^ 3) (ampMatchIN theta * 3) 1 := by
    simpa using ((hasDerivAt_id (1 : ℝ)).pow 3).const_mul (ampMatchIN theta)
  have hd' : HasDerivAt (fun x => get_inspiral_Amp x theta A)
      (deriv (fun x => get_inspiral_Amp x theta A) (ampMatchIN theta)) (ampMatchIN theta * 1 ^ 3) := by
    simpa using hd.hasDerivAt
  have h2 : HasDerivAt (fun w : ℝ => get_inspiral_Amp (ampMatchIN theta * w ^ 3) theta A)
      (deriv (fun x => get_inspiral_Amp x theta A) (ampMatchIN theta) * (ampMatchIN theta * 3)) 1 :=
    HasDerivAt.comp (h₂ := fun x => get_inspiral_Amp x theta A) (1 : ℝ) hd' h1
  have pw : ∀ n : ℕ, HasDerivAt (fun w : ℝ => w ^ n) (n : ℝ) 1 := fun n => by simpa using hasDerivAt_pow n (1 : ℝ)
  have h3 : HasDerivAt (fun w : ℝ => (inspiral_Amp_PN theta).A0 + (inspiral_Amp_PN theta).A2 * c ^ 2 * w ^ 2
      + (inspiral_Amp_PN theta).A3 * c ^ 3 * w ^ 3 + (inspiral_Amp_PN theta).A4 * c ^ 4 * w ^ 4
      + (inspiral_Amp_PN theta).A5 * c ^ 5 * w ^ 5 + (inspiral_Amp_PN theta).A6 * c ^ 6 * w ^ 6 + r0 * w ^ 7 + r1 * w ^ 8
      + r2 * w ^ 9) _ 1 :=
    (((((((((hasDerivAt_const (1 : ℝ) (inspiral_Amp_PN theta).A0).add ((pw 2).const_mul _)).add ((pw 3).const_mul _)).add
      ((pw 4).const_mul _)).add ((pw 5).const_mul _)).add ((pw 6).const_mul _)).add ((pw 7).const_mul _)).add
      ((pw 8).const_mul _)).add ((pw 9).const_mul _))
  have h4 : (fun w : ℝ => get_inspiral_Amp (ampMatchIN theta * w ^ 3) theta A) =ᶠ[nhds 1]
      fun w : ℝ => (inspiral_Amp_PN theta).A0 + (inspiral_Amp_PN theta).A2 * c ^ 2 * w ^ 2
      + (inspiral_Amp_PN theta).A3 * c ^ 3 * w ^ 3 + (inspiral_Amp_PN theta).A4 * c ^ 4 * w ^ 4
      + (inspiral_Amp_PN theta).A5 * c ^ 5 * w ^ 5 + (inspiral_Amp_PN theta).A6 * c ^ 6 * w ^ 6 + r0 * w ^ 7 + r1 * w ^ 8
      + r2 * w ^ 9 := by
    filter_upwards [lt_mem_nhds (zero_lt_one (α := ℝ))] with w hw
    rw [h w hw]
    ring
  have h5 := h2.unique (h3.congr_of_eventuallyEq h4)
  push_cast at h5
  linear_combination h5

/-! ### a sufficient condition for a positive C¹ amplitude -/

/-- the fitted value halfway between the inspiral and the ringdown amplitude regions -/
noncomputable def ampMid (theta : Theta) : ℝ :=
  ampCV PhenomX_amp_coeff_table 3 (etaOf theta) (stotOf theta) (theta.chi1 - theta.chi2)

/-- conditions on the pieces of the amplitude under which the whole is positive and C¹ -/
structure AmpGood (theta : Theta) : Prop where
  ins_pos : ∀ x, 0 < x → x ≤ ampMatchIN theta → 0 < get_inspiral_Amp x theta PhenomX_amp_coeff_table
  mid_pos : 0 < ampMid theta
  rd_pos : 0 < (ringdown_Amp_fits theta PhenomX_amp_coeff_table).2.2
  rd_slope : deriv (fun x => (get_mergerringdown_Amp x theta PhenomX_amp_coeff_table).1)
    (ampPeak theta PhenomX_amp_coeff_table) ≤ 0
  rd_steep : (ampPeak theta PhenomX_amp_coeff_table - ampMatchIN theta) *
    (7 / 6 * (ringdown_Amp_fits theta PhenomX_amp_coeff_table).2.2 - ampPeak theta PhenomX_amp_coeff_table *
      deriv (fun x => (get_mergerringdown_Amp x theta PhenomX_amp_coeff_table).1) (ampPeak theta PhenomX_amp_coeff_table)) ≤
    6 * ampPeak theta PhenomX_amp_coeff_table * (ringdown_Amp_fits theta PhenomX_amp_coeff_table).2.2
  slope : ampMatchIN theta * deriv (fun x => get_inspiral_Amp x theta PhenomX_amp_coeff_table) (ampMatchIN theta) ≤
    7 / 6 * get_inspiral_Amp (ampMatchIN theta) theta PhenomX_amp_coeff_table
  left : ampMatchIN theta ^ ((1 : ℝ) / 6) * ampMid theta *
    (5 * ampMatchIN theta * get_inspiral_Amp (ampMatchIN theta) theta PhenomX_amp_coeff_table +
      (ampPeak theta PhenomX_amp_coeff_table - ampMatchIN theta) *
        (7 / 6 * get_inspiral_Amp (ampMatchIN theta) theta PhenomX_amp_coeff_table - ampMatchIN theta *
          deriv (fun x => get_inspiral_Amp x theta PhenomX_amp_coeff_table) (ampMatchIN theta))) ≤
    16 * get_inspiral_Amp (ampMatchIN theta) theta PhenomX_amp_coeff_table ^ 2
  right : 5 * ampPeak theta PhenomX_amp_coeff_table ^ ((7 : ℝ) / 6) * ampMid theta ≤
    16 * (ringdown_Amp_fits theta PhenomX_amp_coeff_table).2.2

lemma pow76 {x : ℝ} (hx : 0 < x) : x ^ ((7 : ℝ) / 6) = x ^ ((1 : ℝ) / 6) * x := by
  rw [← Real.rpow_add_one hx.ne']; norm_num

/-- the ringdown amplitude is stationary at the start of its region when `gamma2 ≤ 1` -/
lemma rd_stationary {theta : Theta} (h : theta.Physical) (hv : 0 < (ringdown_Amp_fits theta PhenomX_amp_coeff_table).2.2)
    (hg : (ringdown_Amp_fits theta PhenomX_amp_coeff_table).1 ≤ 1) :
    deriv (fun x => (get_mergerringdown_Amp x theta PhenomX_amp_coeff_table).1) (ampPeak theta PhenomX_amp_coeff_table) = 0 := by
  obtain ⟨-, -, -, -, hd, hg2, hg3⟩ := C92_regions_ordered theta h
  have hpk : 0 ≤ (get_cutoff_fMs theta.m1 theta.m2 theta.chi1 theta.chi2).fRD +
      (get_cutoff_fMs theta.m1 theta.m2 theta.chi1 theta.chi2).fdamp *
        (ringdown_Amp_fits theta PhenomX_amp_coeff_table).2.1 *
        (Real.sqrt (1 - (ringdown_Amp_fits theta PhenomX_amp_coeff_table).1 ^ 2) - 1) /
        (ringdown_Amp_fits theta PhenomX_amp_coeff_table).1 := by
    have g2 := gamma2_lo h
    have g3 := gamma3_range h
    have hR := fRD_range h
    have hD := fdamp_range h
    rw [cutoffs_eq]
    simp only
    generalize fRDof (spinOf theta) (eradOf theta) = R at *
    generalize fdampOf (spinOf theta) (eradOf theta) = w at *
    generalize (ringdown_Amp_fits theta PhenomX_amp_coeff_table).1 = g at *
    generalize (ringdown_Amp_fits theta PhenomX_amp_coeff_table).2.1 = k at *
    norm_num at hR hD g2 g3
    have hs := Real.sqrt_nonneg (1 - g ^ 2)
    have hs2 := Real.sq_sqrt (show 0 ≤ 1 - g ^ 2 by nlinarith)
    generalize Real.sqrt (1 - g ^ 2) = s at *
    have hs1 : 1 - s ≤ g := by nlinarith
    have hwk : w * k ≤ 29 / 1760 * (7 / 5) := mul_le_mul hD.2.le g3.2.le (by linarith) (by norm_num)
    have hwk0 : 0 < w * k := mul_pos (by linarith) (by linarith)
    have : -(w * k) ≤ w * k * (s - 1) / g := by
      rw [le_div_iff₀ hg2]
      nlinarith
    linarith
  exact (C64_amp_peak theta PhenomX_amp_coeff_table (mul_pos hd hg3) hg2 hg hv hpk 0).2.1

lemma rd_of_g_le {theta : Theta} (h : theta.Physical) (hv : 0 < (ringdown_Amp_fits theta PhenomX_amp_coeff_table).2.2)
    (hg : (ringdown_Amp_fits theta PhenomX_amp_coeff_table).1 ≤ 1) :
    deriv (fun x => (get_mergerringdown_Amp x theta PhenomX_amp_coeff_table).1) (ampPeak theta PhenomX_amp_coeff_table) ≤ 0 ∧
    (ampPeak theta PhenomX_amp_coeff_table - ampMatchIN theta) *
    (7 / 6 * (ringdown_Amp_fits theta PhenomX_amp_coeff_table).2.2 - ampPeak theta PhenomX_amp_coeff_table *
      deriv (fun x => (get_mergerringdown_Amp x theta PhenomX_amp_coeff_table).1) (ampPeak theta PhenomX_amp_coeff_table)) ≤
    6 * ampPeak theta PhenomX_amp_coeff_table * (ringdown_Amp_fits theta PhenomX_amp_coeff_table).2.2 := by
  obtain ⟨-, -, -, ⟨hF1, hF, -, -⟩, -⟩ := C92_regions_ordered theta h
  norm_num at hF1
  rw [rd_stationary h hv hg]
  refine ⟨le_rfl, ?_⟩
  generalize (ringdown_Amp_fits theta PhenomX_amp_coeff_table).2.2 = v at *
  generalize ampMatchIN theta = F1 at *
  generalize ampPeak theta PhenomX_amp_coeff_table = F4 at *
  have : F4 - F1 ≤ F4 := by linarith
  nlinarith

/-- the connection quartic is positive between the two transition frequencies -/
lemma AmpGood.quartic_pos {theta : Theta} (h : theta.Physical) (H : AmpGood theta) {x : ℝ} (hx1 : ampMatchIN theta ≤ x)
    (hx4 : x ≤ ampPeak theta PhenomX_amp_coeff_table) :
    0 < quartic (intermediate_Amp_coeffs theta PhenomX_amp_coeff_table (ampPeak theta PhenomX_amp_coeff_table)) x := by
  obtain ⟨-, -, -, ⟨hF1, hF, hF4, -⟩, hd, hg2, hg3⟩ := C92_regions_ordered theta h
  have hst := H.rd_slope
  have hst2 := H.rd_steep
  have hw : (get_cutoff_fMs theta.m1 theta.m2 theta.chi1 theta.chi2).fdamp *
      (ringdown_Amp_fits theta PhenomX_amp_coeff_table).2.1 ≠ 0 := (mul_pos hd hg3).ne'
  have hrd := rd_Amp_peak theta PhenomX_amp_coeff_table hw
  have hi := H.ins_pos (ampMatchIN theta) (by norm_num at hF1; linarith) le_rfl
  have hsl := H.slope
  have hl := H.left
  have hr := H.right
  have hm := H.mid_pos
  have hv := H.rd_pos
  have hF1' : 0 < ampMatchIN theta := by norm_num at hF1; linarith
  change 0 < quartic (intermediate_Amp_delta (ampMatchIN theta) (ampMatchIN theta + 1 / 2 *
    (ampPeak theta PhenomX_amp_coeff_table - ampMatchIN theta)) (ampPeak theta PhenomX_amp_coeff_table)
    (1 / (ampMatchIN theta ^ (-((7 : ℝ) / 6)) * get_inspiral_Amp (ampMatchIN theta) theta PhenomX_amp_coeff_table))
    (1 / ampMid theta)
    (1 / (ampPeak theta PhenomX_amp_coeff_table ^ (-((7 : ℝ) / 6)) *
      (get_mergerringdown_Amp (ampPeak theta PhenomX_amp_coeff_table) theta PhenomX_amp_coeff_table).1))
    (7 / 6 * ampMatchIN theta ^ ((1 : ℝ) / 6) / get_inspiral_Amp (ampMatchIN theta) theta PhenomX_amp_coeff_table -
      ampMatchIN theta ^ ((7 : ℝ) / 6) * deriv (fun x => get_inspiral_Amp x theta PhenomX_amp_coeff_table) (ampMatchIN theta) /
      (get_inspiral_Amp (ampMatchIN theta) theta PhenomX_amp_coeff_table *
        get_inspiral_Amp (ampMatchIN theta) theta PhenomX_amp_coeff_table))
    (7 / 6 * ampPeak theta PhenomX_amp_coeff_table ^ ((1 : ℝ) / 6) /
      (get_mergerringdown_Amp (ampPeak theta PhenomX_amp_coeff_table) theta PhenomX_amp_coeff_table).1 -
      ampPeak theta PhenomX_amp_coeff_table ^ ((7 : ℝ) / 6) *
      deriv (fun x => (get_mergerringdown_Amp x theta PhenomX_amp_coeff_table).1) (ampPeak theta PhenomX_amp_coeff_table) /
      ((get_mergerringdown_Amp (ampPeak theta PhenomX_amp_coeff_table) theta PhenomX_amp_coeff_table).1 *
        (get_mergerringdown_Amp (ampPeak theta PhenomX_amp_coeff_table) theta PhenomX_amp_coeff_table).1))) x
  rw [hrd]
  generalize deriv (fun x => (get_mergerringdown_Amp x theta PhenomX_amp_coeff_table).1)
    (ampPeak theta PhenomX_amp_coeff_table) = R at *
  generalize get_inspiral_Amp (ampMatchIN theta) theta PhenomX_amp_coeff_table = i1 at *
  generalize deriv (fun x => get_inspiral_Amp x theta PhenomX_amp_coeff_table) (ampMatchIN theta) = j1 at *
  generalize (ringdown_Amp_fits theta PhenomX_amp_coeff_table).2.2 = v at *
  generalize ampMid theta = m at *
  generalize ampMatchIN theta = F1 at *
  generalize ampPeak theta PhenomX_amp_coeff_table = F4 at *
  have hF4' : 0 < F4 := hF1'.trans hF
  rw [Real.rpow_neg hF1'.le, Real.rpow_neg hF4'.le, pow76 hF1', pow76 hF4']
  rw [pow76 hF4'] at hr
  have k1 : 0 < F1 ^ ((1 : ℝ) / 6) := Real.rpow_pos_of_pos hF1' _
  have k4 : 0 < F4 ^ ((1 : ℝ) / 6) := Real.rpow_pos_of_pos hF4' _
  generalize F1 ^ ((1 : ℝ) / 6) = k at *
  generalize F4 ^ ((1 : ℝ) / 6) = l at *
  obtain ⟨s, hs⟩ : ∃ s, s = (x - F1) / (F4 - F1) := ⟨_, rfl⟩
  obtain ⟨g, hg⟩ : ∃ g, g = F4 - F1 := ⟨_, rfl⟩
  have hg0 : 0 < g := by linarith
  have hxs : x = F1 + s * g := by
    rw [hs, hg, div_mul_cancel₀ _ (by linarith)]; ring
  have e4 : F4 = F1 + g := by linarith
  rw [hxs]
  rw [e4] at hl hr ⊢
  rw [quartic_hermite hg0.ne']
  refine hermite_pos ?_ ?_ ?_ ?_ ?_ ?_ ?_ ?_ ?_ ?_
  · positivity
  · positivity
  · rw [e4] at hF4'; positivity
  · have : 7 / 6 * k / i1 - k * F1 * j1 / (i1 * i1) = k * (7 / 6 * i1 - F1 * j1) / i1 ^ 2 := by field_simp
    rw [this]
    refine mul_nonneg hg0.le (div_nonneg (mul_nonneg k1.le (by linarith)) (by positivity))
  · have : 5 * (1 / ((k * F1)⁻¹ * i1)) + g * (7 / 6 * k / i1 - k * F1 * j1 / (i1 * i1)) =
        k * (5 * F1 * i1 + g * (7 / 6 * i1 - F1 * j1)) / i1 ^ 2 := by field_simp
    rw [this, div_le_iff₀ (by positivity)]
    rw [show 16 * (1 / m) * i1 ^ 2 = 16 * i1 ^ 2 / m by ring, le_div_iff₀ hm]
    have e : F1 + g - F1 = g := by ring
    rw [e] at hl
    linarith
  · have : 7 / 6 * l / v - l * (F1 + g) * R / (v * v) = l * (7 / 6 * v + (F1 + g) * (-R)) / v ^ 2 := by field_simp; ring
    rw [this]
    rw [e4] at hF4'
    exact mul_nonneg hg0.le (div_nonneg (mul_nonneg k4.le (add_nonneg (by positivity)
      (mul_nonneg hF4'.le (by linarith)))) (by positivity))
  · have e6 : 1 / ((l * (F1 + g))⁻¹ * v) = l * (F1 + g) / v := by rw [e4] at hF4'; field_simp
    rw [e6]
    have e7 : 6 * (l * (F1 + g) / v) - g * (7 / 6 * l / v - l * (F1 + g) * R / (v * v)) =
        l * (6 * (F1 + g) * v - g * (7 / 6 * v - (F1 + g) * R)) / v ^ 2 := by
      field_simp
    have e8 : 0 ≤ l * (6 * (F1 + g) * v - g * (7 / 6 * v - (F1 + g) * R)) / v ^ 2 := by
      refine div_nonneg (mul_nonneg k4.le ?_) (by positivity)
      rw [e4] at hst2
      have e : F1 + g - F1 = g := by ring
      rw [e] at hst2
      linarith
    linarith
  · have : 5 * (1 / ((l * (F1 + g))⁻¹ * v)) = 5 * (l * (F1 + g)) / v := by rw [e4] at hF4'; field_simp
    rw [this, div_le_iff₀ hv, show 16 * (1 / m) * v = 16 * v / m by ring, le_div_iff₀ hm]
    linarith
  · rw [hs]; exact div_nonneg (by linarith) (by linarith)
  · rw [hs, div_le_one (by linarith)]; linarith

lemma ampUnit_pos {theta : Theta} (h : theta.Physical) {D : ℝ} (hD : 0 < D) : 0 < ampUnit theta D := by
  have := h.m1_pos
  have := h.m2_pos
  have := gt_pos
  have hM : 0 < PhenomD.Ms theta := by unfold PhenomD.Ms; positivity
  have hmM : 0 < m_per_Mpc := by unfold m_per_Mpc; norm_num
  have hC : 0 < C := by unfold C; norm_num
  have hpi : 0 < PI := Real.pi_pos
  unfold ampUnit
  have := Real.rpow_pos_of_pos hpi (-((1 : ℝ) / 6))
  positivity

/-- the whole amplitude is positive up to the cut-off -/
lemma AmpGood.amp_pos {theta : Theta} (h : theta.Physical) (H : AmpGood theta) {D f : ℝ} (hD : 0 < D) (hf : 0 < f)
    (hfM : f * PhenomD.Ms theta ≤ 0.3) : 0 < Amp f theta PhenomX_amp_coeff_table D := by
  obtain ⟨-, -, -, ⟨hF1, hF, hF4, hF5⟩, hd, hg2, hg3⟩ := C92_regions_ordered theta h
  have := h.m1_pos
  have := h.m2_pos
  have := gt_pos
  have hM : 0 < PhenomD.Ms theta := by unfold PhenomD.Ms; positivity
  have hx : 0 < f * PhenomD.Ms theta := mul_pos hf hM
  rw [Amp_eq]
  have hrd : 0 < (get_mergerringdown_Amp (f * PhenomD.Ms theta) theta PhenomX_amp_coeff_table).1 := by
    rw [rd_Amp_eq]
    have hw : 0 < (get_cutoff_fMs theta.m1 theta.m2 theta.chi1 theta.chi2).fdamp *
      (ringdown_Amp_fits theta PhenomX_amp_coeff_table).2.1 := mul_pos hd hg3
    have hv := H.rd_pos
    unfold PhenomD.lor
    generalize (get_cutoff_fMs theta.m1 theta.m2 theta.chi1 theta.chi2).fdamp * (ringdown_Amp_fits theta PhenomX_amp_coeff_table).2.1 = w at *
    positivity
  have hint : ampMatchIN theta ≤ f * PhenomD.Ms theta → f * PhenomD.Ms theta ≤ ampPeak theta PhenomX_amp_coeff_table →
      0 < get_intermediate_Amp (f * PhenomD.Ms theta) theta PhenomX_amp_coeff_table (ampPeak theta PhenomX_amp_coeff_table) := by
    intro a b
    rw [int_Amp_eq]
    exact div_pos (Real.rpow_pos_of_pos hx _) (H.quartic_pos h a b)
  refine mul_pos (mul_pos (ampUnit_pos h hD) ?_) (Real.rpow_pos_of_pos hx _)
  have hins := H.ins_pos (f * PhenomD.Ms theta) hx
  generalize get_inspiral_Amp (f * PhenomD.Ms theta) theta PhenomX_amp_coeff_table = i at *
  generalize get_intermediate_Amp (f * PhenomD.Ms theta) theta PhenomX_amp_coeff_table
    (ampPeak theta PhenomX_amp_coeff_table) = j at *
  generalize (get_mergerringdown_Amp (f * PhenomD.Ms theta) theta PhenomX_amp_coeff_table).1 = k at *
  generalize f * PhenomD.Ms theta = x at *
  generalize ampMatchIN theta = a at *
  generalize ampPeak theta PhenomX_amp_coeff_table = b at *
  have hb : b < 0.3 := hF4.trans hF5
  rcases lt_trichotomy x a with h1 | h1 | h1
  · rw [Jnp.heaviside_pos (x := a - x) (by linarith), Jnp.heaviside_neg (x := x - a) (by linarith),
      Jnp.heaviside_neg (x := x - b) (by linarith)]
    have := hins h1.le
    simpa using this
  · rw [h1, sub_self, Jnp.heaviside_zero, Jnp.heaviside_pos (x := b - a) (by linarith),
      Jnp.heaviside_neg (x := a - b) (by linarith)]
    have h2 := hins h1.le
    have h3 := hint h1.ge (by linarith)
    norm_num
    linarith
  · rw [Jnp.heaviside_neg (x := a - x) (by linarith), Jnp.heaviside_pos (x := x - a) (by linarith)]
    rcases lt_trichotomy x b with h2 | h2 | h2
    · rw [Jnp.heaviside_pos (x := b - x) (by linarith), Jnp.heaviside_neg (x := x - b) (by linarith)]
      have := hint h1.le h2.le
      simpa using this
    · rw [h2, sub_self, Jnp.heaviside_zero, Jnp.heaviside_pos (x := 0.3 - b) (by linarith)]
      have h3 := hint h1.le h2.le
      norm_num
      linarith
    · rw [Jnp.heaviside_neg (x := b - x) (by linarith), Jnp.heaviside_pos (x := x - b) (by linarith)]
      rcases hfM.lt_or_eq with h3 | h3
      · rw [Jnp.heaviside_pos (x := 0.3 - x) (by linarith)]
        simpa using hrd
      · rw [h3, sub_self, Jnp.heaviside_zero]
        norm_num
        exact hrd

/-- the whole amplitude is continuously differentiable below the cut-off -/
lemma AmpGood.amp_C1 {theta : Theta} (h : theta.Physical) (H : AmpGood theta) {D : ℝ} (hD : 0 < D) :
    ContDiffOn ℝ 1 (fun f => Amp f theta PhenomX_amp_coeff_table D) (Ioo 0 (0.3 / ((theta.m1 + theta.m2) * gt))) := by
  obtain ⟨-, -, -, ⟨hF1, hF, -, -⟩, hd, hg2, hg3⟩ := C92_regions_ordered theta h
  have hF1' : 0 < ampMatchIN theta := by norm_num at hF1; linarith
  exact C63_amplitude_C1 theta h.m1_pos h.m2_pos _ D hD (mul_pos hd hg3).ne' hF1' hF (H.ins_pos _ hF1' le_rfl).ne'
    H.rd_pos.ne' fun x h1 h2 => (H.quartic_pos h h1 h2).ne'

/-! ### numerical bounds without spins -/

/-- amplitude fit of the shipped table without spins: first inspiral node -/
noncomputable def nsF0 (e : ℝ) : ℝ :=
  (-0.015178276424448592 - 0.06098548699809163 * e + 0.4845148547154606 * e ^ 2) /
    (1 + 0.09799277215675059 * e)
/-- amplitude fit of the shipped table without spins: second inspiral node -/
noncomputable def nsF1 (e : ℝ) : ℝ :=
  (-0.058572000924124644 - 1.1970535595488723 * e + 8.4630293045015 * e ^ 2) /
    (1 + 15.430818840453686 * e)
/-- amplitude fit of the shipped table without spins: third inspiral node -/
noncomputable def nsF2 (e : ℝ) : ℝ :=
  (-0.16212854591357853 + 1.617404703616985 * e - 3.186012733446088 * e ^ 2 + 5.629598195000046 * e ^ 3) /
    (1 + 0.04507019231274476 * e)
/-- amplitude fit of the shipped table without spins: halfway between the regions -/
noncomputable def nsMid (e : ℝ) : ℝ :=
  (1.4873184918202145 + 1974.6112656679577 * e + 27563.641024162127 * e ^ 2 - 19837.908020966777 * e ^ 3) /
    (1 + 143.29004876335128 * e + 458.4097306093354 * e ^ 2)
/-- amplitude fit of the shipped table without spins: `gamma2` -/
noncomputable def nsG2 (e : ℝ) : ℝ :=
  (0.8312293675316895 + 7.480371544268765 * e - 18.256121237800397 * e ^ 2) /
    (1 + 10.915453595496611 * e - 30.578409433912874 * e ^ 2)
/-- amplitude fit of the shipped table without spins: `v1RD` -/
noncomputable def nsV (e : ℝ) : ℝ :=
  (0.03689164742964719 + 25.417967754401182 * e + 162.52904393600332 * e ^ 2) /
    (1 + 61.19874463331437 * e - 29.628854485544874 * e ^ 2)
/-- post-Newtonian part of the inspiral amplitude without spins; `p` stands for π -/
noncomputable def nsPN (e p v : ℝ) : ℝ :=
  1 + v ^ 2 * ((-969 + 1804 * e) / 672 + v ^ 2 * ((-27312085 + e * (-47401320 + 35371056 * e)) / 8128512
    + v * (42840 * (-1 + 4 * e) * p / 32256
    + v * ((-1242641879927 + 12 * e * (545384828789 - 21384760320 * p ^ 2 + e * (-90967773596 + 27026893936 * e))) / 60085960704))))

/-- logarithmic slope (times 3) of the post-Newtonian part -/
noncomputable def nsPN' (e p v : ℝ) : ℝ :=
  v ^ 2 * (2 * ((-969 + 1804 * e) / 672) + v ^ 2 * (4 * ((-27312085 + e * (-47401320 + 35371056 * e)) / 8128512)
    + v * (5 * (42840 * (-1 + 4 * e) * p / 32256)
    + v * (6 * ((-1242641879927 + 12 * e * (545384828789 - 21384760320 * p ^ 2 + e * (-90967773596 + 27026893936 * e))) / 60085960704)))))

/-- first divided difference of the pseudo-PN part -/
noncomputable def nsS1 (f1 f2 W1 : ℝ) : ℝ := (f2 - 64 / 27 * f1 * W1 ^ 2) / (1 - W1)
/-- second divided difference of the pseudo-PN part -/
noncomputable def nsS2 (f0 f1 f2 W0 W1 : ℝ) : ℝ :=
  (nsS1 f1 f2 W1 - (64 / 27 * f1 * W1 ^ 2 - 8 * f0 * W0 ^ 2) / (W1 - W0)) / (1 - W0)

lemma ns_ins (e δ w p W0 W1 v f0 f1 f2 : ℝ) (he : 0 ≤ e ∧ e ≤ 0.25) (hδ : 0 ≤ δ ∧ δ ≤ 0.04) (hw : 0 ≤ w ∧ w ≤ 1)
    (hp : 3.1415 ≤ p ∧ p ≤ 3.1416) (hW0 : 0.7937 ≤ W0 ∧ W0 ≤ 0.7938) (hW1 : 0.9085 ≤ W1 ∧ W1 ≤ 0.9086)
    (hv : v = w * (0.388 + 0.17 * e + δ)) (h0 : f0 = nsF0 e) (h1 : f1 = nsF1 e) (h2 : f2 = nsF2 e) :
    0 < nsPN e p v + w ^ 7 * (f2 + (w - 1) * (nsS1 f1 f2 W1 + (w - W1) * nsS2 f0 f1 f2 W0 W1)) := by
  unfold nsF0 at h0
  unfold nsF1 at h1
  unfold nsF2 at h2
  unfold nsPN nsS2 nsS1
  interval_bnb [he, hδ, hw, hp, hW0, hW1] [hv, h0, h1, h2] 

lemma ns_slope (e δ p W0 W1 v f0 f1 f2 : ℝ) (he : 0 ≤ e ∧ e ≤ 0.25) (hδ : 0 ≤ δ ∧ δ ≤ 0.04)
    (hp : 3.1415 ≤ p ∧ p ≤ 3.1416) (hW0 : 0.7937 ≤ W0 ∧ W0 ≤ 0.7938) (hW1 : 0.9085 ≤ W1 ∧ W1 ≤ 0.9086)
    (hv : v = 0.388 + 0.17 * e + δ) (h0 : f0 = nsF0 e) (h1 : f1 = nsF1 e) (h2 : f2 = nsF2 e) :
    0 < 3.5 * (nsPN e p v + f2) - (nsPN' e p v + 7 * f2 + nsS1 f1 f2 W1 + (1 - W1) * nsS2 f0 f1 f2 W0 W1) := by
  unfold nsF0 at h0
  unfold nsF1 at h1
  unfold nsF2 at h2
  unfold nsPN nsPN' nsS2 nsS1
  interval_bnb [he, hδ, hp, hW0, hW1] [hv, h0, h1, h2]

lemma ns_left (e δ p W0 W1 v f0 f1 f2 m i r : ℝ) (he : 0 ≤ e ∧ e ≤ 0.25) (hδ : 0 ≤ δ ∧ δ ≤ 0.04)
    (hp : 3.1415 ≤ p ∧ p ≤ 3.1416) (hW0 : 0.7937 ≤ W0 ∧ W0 ≤ 0.7938) (hW1 : 0.9085 ≤ W1 ∧ W1 ≤ 0.9086)
    (hv : v = 0.388 + 0.17 * e + δ) (h0 : f0 = nsF0 e) (h1 : f1 = nsF1 e) (h2 : f2 = nsF2 e) (hm : m = nsMid e)
    (hi : i = nsPN e p v + f2) (hr : r = 0.0605 + 0.125 * e) :
    0 < 16 * i ^ 2 - 0.57 * m * (5 * (v ^ 3 / p) * i + r * (7 / 6 * i -
      (nsPN' e p v + 7 * f2 + nsS1 f1 f2 W1 + (1 - W1) * nsS2 f0 f1 f2 W0 W1) / 3)) := by
  unfold nsF0 at h0
  unfold nsF1 at h1
  unfold nsF2 at h2
  unfold nsMid at hm
  unfold nsPN at hi
  unfold nsPN' nsS2 nsS1
  interval_bnb [he, hδ, hp, hW0, hW1] [hv, h0, h1, h2, hm, hi, hr]

lemma ns_right (e r : ℝ) (he : 0 ≤ e ∧ e ≤ 0.25) (hr : r = 0.0605 + 0.125 * e) :
    0 < 16 * nsV e - 5 * 0.69 * r * nsMid e := by
  unfold nsV nsMid
  interval_bnb [he] [hr]

lemma ns_mid (e : ℝ) (he : 0 ≤ e ∧ e ≤ 0.25) : 0 < nsMid e := by
  unfold nsMid
  interval_bnb [he] []
lemma ns_v (e : ℝ) (he : 0 ≤ e ∧ e ≤ 0.25) : 0 < nsV e := by
  unfold nsV
  interval_bnb [he] []
lemma ns_g2 (e : ℝ) (he : 0 ≤ e ∧ e ≤ 0.25) : 0 < 1 - nsG2 e := by
  unfold nsG2
  interval_bnb [he] []

lemma ns_fRD (e a t E : ℝ) (he : 0 ≤ e ∧ e ≤ 0.25) (ha : a = e * sK e) (ht : t = 1 - a)
    (hE : E = e * eradG e 0 0 0) : 0 < 0.0605 + 0.125 * e - rN t / rD t / (1 - E) := by
  unfold sK at ha
  unfold eradG at hE
  unfold rN rD
  interval_bnb [he] [ha, ht, hE]

lemma ns_Flo (e a t u v : ℝ) (he : 0 ≤ e ∧ e ≤ 0.25) (ha : a = e * sK e) (ht : t = 1 - a)
    (hu : u = (1.52 + 1.86 * t) / (1 + 0.36 * t)) (hv : v = 0.388 + 0.17 * e) :
    0 < 3.1415 * (0.75 * fMECOof e 0 0 0 + 0.25 * (1 / (u ^ 3 + a) / 3.15)) - v ^ 3 := by
  unfold sK at ha
  unfold fMECOof
  simp only []
  interval_bnb [he] [ha, ht, hu, hv]

lemma ns_Fhi (e a t u v : ℝ) (he : 0 ≤ e ∧ e ≤ 0.25) (ha : a = e * sK e) (ht : t = 1 - a)
    (hu : u = (1 + 3 * t) / (1 + 0.7 * t)) (hv : v = 0.388 + 0.17 * e + 0.04) :
    0 < v ^ 3 - 3.1416 * (0.75 * fMECOof e 0 0 0 + 0.25 * (1 / (u ^ 3 + a) / 3.14)) := by
  unfold sK at ha
  unfold fMECOof
  simp only []
  interval_bnb [he] [ha, ht, hu, hv]

/-! ### nonspinning binaries -/

section
variable {theta : Theta} (h1 : theta.chi1 = 0) (h2 : theta.chi2 = 0)
include h1 h2

lemma ns_stot : stotOf theta = 0 := by unfold stotOf; rw [h1, h2]; simp
lemma ns_chipn : chipnOf theta = 0 := by unfold chipnOf; rw [h1, h2]; simp
lemma ns_spin (h : theta.Physical) : spinOf theta = etaOf theta * sK (etaOf theta) := by
  rw [spinOf_eq h, ns_stot h1 h2, h1, h2]
  unfold spinG
  ring
lemma ns_erad : eradOf theta = etaOf theta * eradG (etaOf theta) 0 0 0 := by
  unfold eradOf
  rw [eRad_eq, ns_stot h1 h2, h1, h2]
  simp

lemma ns_values (i : Fin 3) : inspiral_Amp_values theta PhenomX_amp_coeff_table i =
    ![nsF0 (etaOf theta), nsF1 (etaOf theta), nsF2 (etaOf theta)] i := by
  have hc := ns_chipn h1 h2
  change ![ampCV PhenomX_amp_coeff_table 0 (etaOf theta) (chipnOf theta) (theta.chi1 - theta.chi2),
    ampCV PhenomX_amp_coeff_table 1 (etaOf theta) (chipnOf theta) (theta.chi1 - theta.chi2),
    ampCV PhenomX_amp_coeff_table 2 (etaOf theta) (chipnOf theta) (theta.chi1 - theta.chi2)] i = _
  rw [hc, h1, h2]
  fin_cases i <;> simp [ampCV, Amp_Nospin_CV, Amp_Eqspin_CV, Amp_Uneqspin_CV, PhenomX_amp_coeff_table, PhenomX_amp_coeff_table_rows,
    amp_eqspin_indx, amp_uneqspin_indx, nsF0, nsF1, nsF2] <;> ring

lemma ns_ampMid : ampMid theta = nsMid (etaOf theta) := by
  unfold ampMid
  rw [ns_stot h1 h2, h1, h2]
  simp [ampCV, Amp_Nospin_CV, Amp_Eqspin_CV, Amp_Uneqspin_CV, PhenomX_amp_coeff_table, PhenomX_amp_coeff_table_rows,
    amp_eqspin_indx, amp_uneqspin_indx, nsMid]
  ring

lemma ns_gamma2 : (ringdown_Amp_fits theta PhenomX_amp_coeff_table).1 = nsG2 (etaOf theta) := by
  rw [gamma2_eq, ns_stot h1 h2, h1, h2]
  unfold nsG2
  ring

lemma ns_v1RD : (ringdown_Amp_fits theta PhenomX_amp_coeff_table).2.2 = nsV (etaOf theta) := by
  change ampCV PhenomX_amp_coeff_table 6 (etaOf theta) (stotOf theta) (theta.chi1 - theta.chi2) = _
  rw [ns_stot h1 h2, h1, h2]
  simp [ampCV, Amp_Nospin_CV, Amp_Eqspin_CV, Amp_Uneqspin_CV, PhenomX_amp_coeff_table, PhenomX_amp_coeff_table_rows,
    amp_eqspin_indx, amp_uneqspin_indx, nsV]
  ring

end


/-! ### nonspinning binaries: all conditions hold -/

lemma cube_root {x : ℝ} (hx : 0 < x) : ∃ c : ℝ, 0 < c ∧ c ^ 3 = x ∧ c = x ^ ((1 : ℝ) / 3) :=
  ⟨x ^ ((1 : ℝ) / 3), Real.rpow_pos_of_pos hx _, by rw [← Real.rpow_natCast, ← Real.rpow_mul hx.le]; norm_num, rfl⟩

lemma pow_thirds {p c : ℝ} (hp : 0 < p) (hc : c = p ^ ((1 : ℝ) / 3)) (k : ℕ) : p ^ ((k : ℝ) / 3) = c ^ k := by
  rw [hc, ← Real.rpow_natCast, ← Real.rpow_mul hp.le]
  congr 1
  ring

lemma lt_of_cube_lt {a b : ℝ} (hb : 0 ≤ b) (h : a ^ 3 < b ^ 3) : a < b := lt_of_pow_lt_pow_left₀ 3 hb h

/-- a quadratic through three prescribed values in Newton form -/
lemma newton_form {r0 r1 r2 W0 W1 g0 g1 g2 : ℝ} (h01 : W1 - W0 ≠ 0) (h02 : 1 - W0 ≠ 0) (h12 : 1 - W1 ≠ 0)
    (e0 : r0 + r1 * W0 + r2 * W0 ^ 2 = g0) (e1 : r0 + r1 * W1 + r2 * W1 ^ 2 = g1) (e2 : r0 + r1 + r2 = g2) :
    r1 + r2 * (1 + W1) = (g2 - g1) / (1 - W1) ∧
    r2 = ((g2 - g1) / (1 - W1) - (g1 - g0) / (W1 - W0)) / (1 - W0) := by
  have a : r1 + r2 * (1 + W1) = (g2 - g1) / (1 - W1) := by
    rw [eq_div_iff h12, ← e1, ← e2]; ring
  have b : r1 + r2 * (W0 + W1) = (g1 - g0) / (W1 - W0) := by
    rw [eq_div_iff h01, ← e1, ← e0]; ring
  refine ⟨a, ?_⟩
  rw [eq_div_iff h02, ← a, ← b]
  ring

lemma isco_lo {a : ℝ} (h1 : -1 ≤ a) (h2 : a ≤ 1) :
    1 / (((1.52 + 1.86 * (1 - a)) / (1 + 0.36 * (1 - a))) ^ 3 + a) / 3.15 ≤ fISCOof a := by
  obtain ⟨u, hr, u1, u3, hau, -⟩ := isco_exists h1 h2
  obtain ⟨-, hub⟩ := isco_bounds h1 h2 u1 hau
  rw [fISCO_eq hr (by linarith)]
  have h3 : u ^ 3 ≤ ((1.52 + 1.86 * (1 - a)) / (1 + 0.36 * (1 - a))) ^ 3 := pow_le_pow_left₀ (by linarith) hub 3
  have hp : 0 < u ^ 3 + a := by
    have hu : 1 ≤ u ^ 3 := one_le_pow₀ u1
    rcases h1.lt_or_eq with hl | hl
    · linarith
    · have : 1 < u := by
        rcases u1.lt_or_eq with hl' | hl'
        · exact hl'
        · exfalso
          rw [← hl', ← hl] at hau
          norm_num [iscoSpin] at hau
      have := one_lt_pow₀ this (n := 3) (by norm_num)
      linarith
  have hpi : π < 3.15 := by linarith [Real.pi_lt_d2]
  rw [div_div, div_div]
  refine one_div_le_one_div_of_le (mul_pos hp Real.pi_pos) ?_
  exact mul_le_mul (by linarith) hpi.le Real.pi_pos.le (by linarith)

lemma meco_nospin (e d : ℝ) : fMECOof e d 0 0 = fMECOof e 0 0 0 := by
  unfold fMECOof
  simp

lemma ns_PNcoeffs {theta : Theta} (h1 : theta.chi1 = 0) (h2 : theta.chi2 = 0) :
    (inspiral_Amp_PN theta).A2 = (-969 + 1804 * etaOf theta) / 672 * π ^ ((2 : ℝ) / 3) ∧
    (inspiral_Amp_PN theta).A3 = 0 ∧
    (inspiral_Amp_PN theta).A4 = (-27312085 + etaOf theta * (-47401320 + 35371056 * etaOf theta)) / 8128512 * π ^ ((4 : ℝ) / 3) ∧
    (inspiral_Amp_PN theta).A5 = 42840 * (-1 + 4 * etaOf theta) * π / 32256 * π ^ ((5 : ℝ) / 3) ∧
    (inspiral_Amp_PN theta).A6 = π ^ 2 * ((-1242641879927 + 12 * etaOf theta * (545384828789 - 21384760320 * π ^ 2 +
      etaOf theta * (-90967773596 + 27026893936 * etaOf theta))) / 60085960704) := by
  refine ⟨rfl, ?_, ?_, ?_, ?_⟩
  · unfold inspiral_Amp_PN
    simp [h1, h2]
  · change (-27312085 - 10287648 * theta.chi1 ^ 2 * (1 + dOf theta) + 24 * (428652 * theta.chi2 ^ 2 * (-1 + dOf theta) +
      (-1975055 + 10584 * (81 * theta.chi1 ^ 2 - 94 * theta.chi1 * theta.chi2 + 81 * theta.chi2 ^ 2)) * etaOf theta +
      1473794 * (etaOf theta * etaOf theta))) / 8.128512e6 * π ^ ((4 : ℝ) / 3) = _
    rw [h1, h2]
    ring
  · unfold inspiral_Amp_PN
    simp only [h1, h2]
    change (_ + 42840 * (-1 + 4 * etaOf theta) * π) / 32256 * π ^ ((5 : ℝ) / 3) = _
    ring_nf
  · unfold inspiral_Amp_PN
    simp only [h1, h2]
    change (-1242641879927 + 12 * (28 * (-3248849057 + _) * (etaOf theta * etaOf theta) + 27026893936 * (etaOf theta * etaOf theta) *
      etaOf theta - _ + etaOf theta * (545384828789 - 77616 * (_ + 275520 * π ^ 2)))) / 6.0085960704e10 * π ^ 2 = _
    norm_num
    ring

lemma root6_le {x b : ℝ} (hx : 0 ≤ x) (hb : 0 ≤ b) (h : x ≤ b ^ 6) : x ^ ((1 : ℝ) / 6) ≤ b := by
  have e : b = (b ^ 6) ^ ((1 : ℝ) / 6) := by
    rw [← Real.rpow_natCast, ← Real.rpow_mul hb]; norm_num
  rw [e]
  exact Real.rpow_le_rpow hx h (by norm_num)

/-- the last steps of the bound on the left half -/
lemma left_of {k F1 F4 m i1 j1 r K : ℝ} (hk : 0 ≤ k) (hkK : k ≤ K) (hm : 0 ≤ m) (hF1 : 0 ≤ F1) (hr : F4 - F1 ≤ r) (hr0 : 0 ≤ r)
    (hi : 0 ≤ i1) (hK : 0 ≤ 7 / 6 * i1 - F1 * j1)
    (h : K * m * (5 * F1 * i1 + r * (7 / 6 * i1 - F1 * j1)) ≤ 16 * i1 ^ 2) :
    k * m * (5 * F1 * i1 + (F4 - F1) * (7 / 6 * i1 - F1 * j1)) ≤ 16 * i1 ^ 2 := by
  have e1 := mul_le_mul_of_nonneg_right hr hK
  have e0 : 0 ≤ 5 * F1 * i1 + r * (7 / 6 * i1 - F1 * j1) :=
    add_nonneg (mul_nonneg (mul_nonneg (by norm_num) hF1) hi) (mul_nonneg hr0 hK)
  calc _ ≤ k * m * (5 * F1 * i1 + r * (7 / 6 * i1 - F1 * j1)) :=
        mul_le_mul_of_nonneg_left (by linarith) (mul_nonneg hk hm)
    _ ≤ K * m * (5 * F1 * i1 + r * (7 / 6 * i1 - F1 * j1)) :=
        mul_le_mul_of_nonneg_right (mul_le_mul_of_nonneg_right hkK hm) e0
    _ ≤ _ := h

lemma ns_good {theta : Theta} (h : theta.Physical) (h1 : theta.chi1 = 0) (h2 : theta.chi2 = 0) : AmpGood theta := by
  have he := eta_box h
  obtain ⟨-, -, -, ⟨hF1, hF, hF4, -⟩, hd, hg2, hg3⟩ := C92_regions_ordered theta h
  have hF1' : 0 < ampMatchIN theta := by norm_num at hF1; linarith
  have hF4' : 0 < ampPeak theta PhenomX_amp_coeff_table := hF1'.trans hF
  -- the end of the inspiral
  have hIN : ampMatchIN theta = 0.75 * fMECOof (etaOf theta) 0 0 0 + 0.25 * fISCOof (spinOf theta) := by
    change fMECOof (etaOf theta) (dOf theta) (chipnOf theta) (theta.chi1 - theta.chi2) + 0.25 * (fISCOof (spinOf theta) -
      fMECOof (etaOf theta) (dOf theta) (chipnOf theta) (theta.chi1 - theta.chi2)) = _
    rw [ns_chipn h1 h2, h1, h2, sub_zero, meco_nospin]
    ring
  have hsp := ns_spin h1 h2 h
  have a1 := spin_gt h
  have a2 := spin_lt h
  have hIhi := isco_hi a1.le a2.le
  have hIlo : 1 / (((1.52 + 1.86 * (1 - spinOf theta)) / (1 + 0.36 * (1 - spinOf theta))) ^ 3 + spinOf theta) / 3.15 ≤
      fISCOof (spinOf theta) := isco_lo a1.le a2.le
  have lo := ns_Flo (etaOf theta) (spinOf theta) (1 - spinOf theta) _ _ he hsp rfl rfl rfl
  have hi := ns_Fhi (etaOf theta) (spinOf theta) (1 - spinOf theta) _ _ he hsp rfl rfl rfl
  have hpi1 : (3.1415 : ℝ) ≤ π := by linarith [Real.pi_gt_d4]
  have hpi2 : π ≤ (3.1416 : ℝ) := by linarith [Real.pi_lt_d4]
  obtain ⟨c, hc, hc3, hceq⟩ := cube_root hF1'
  obtain ⟨p, hp, hp3, hpeq⟩ := cube_root Real.pi_pos
  have hv3 : (p * c) ^ 3 = π * ampMatchIN theta := by rw [mul_pow, hp3, hc3]
  have hvlo : 0.388 + 0.17 * etaOf theta ≤ p * c := by
    refine (lt_of_cube_lt (by positivity) ?_).le
    rw [hv3, hIN]
    refine lt_of_lt_of_le (sub_pos.1 lo) ?_
    refine mul_le_mul hpi1 (by linarith) ?_ Real.pi_pos.le
    have : 0 < 0.388 + 0.17 * etaOf theta := by linarith
    have := pow_pos this 3
    linarith
  have hvhi : p * c ≤ 0.388 + 0.17 * etaOf theta + 0.04 := by
    refine (lt_of_cube_lt (by linarith) ?_).le
    rw [hv3, hIN]
    refine lt_of_le_of_lt ?_ (sub_pos.1 hi)
    exact mul_le_mul hpi2 (by linarith) (by rw [← hIN]; exact hF1'.le) (by norm_num)
  obtain ⟨δ, hδ⟩ : ∃ δ, δ = p * c - (0.388 + 0.17 * etaOf theta) := ⟨_, rfl⟩
  have hδr : 0 ≤ δ ∧ δ ≤ 0.04 := ⟨by linarith, by linarith⟩
  have hv : p * c = 0.388 + 0.17 * etaOf theta + δ := by rw [hδ]; ring
  -- the collocation nodes
  obtain ⟨W0, hW0, hW03, -⟩ := cube_root (show (0 : ℝ) < 0.5 by norm_num)
  obtain ⟨W1, hW1, hW13, -⟩ := cube_root (show (0 : ℝ) < 0.75 by norm_num)
  have bW0 : 0.7937 ≤ W0 ∧ W0 ≤ 0.7938 :=
    ⟨(lt_of_cube_lt hW0.le (by rw [hW03]; norm_num)).le, (lt_of_cube_lt (by norm_num) (by rw [hW03]; norm_num)).le⟩
  have bW1 : 0.9085 ≤ W1 ∧ W1 ≤ 0.9086 :=
    ⟨(lt_of_cube_lt hW1.le (by rw [hW13]; norm_num)).le, (lt_of_cube_lt (by norm_num) (by rw [hW13]; norm_num)).le⟩
  obtain ⟨r0, r1, r2, hins, hcol⟩ := ins_w theta PhenomX_amp_coeff_table hF1' hc hc3.symm
  have q0 : r0 + r1 * W0 + r2 * W0 ^ 2 = 8 * nsF0 (etaOf theta) * W0 ^ 2 := by
    have := hcol 0 W0 hW0 (by simpa using hW03)
    rw [ns_values h1 h2] at this
    simp only [Matrix.cons_val_zero] at this
    rw [← this]
    have e9 : W0 ^ 2 * W0 ^ 7 = 0.5 ^ 3 := by rw [← hW03]; ring
    linear_combination (-8 * (r0 + r1 * W0 + r2 * W0 ^ 2)) * e9
  have q1 : r0 + r1 * W1 + r2 * W1 ^ 2 = 64 / 27 * nsF1 (etaOf theta) * W1 ^ 2 := by
    have := hcol 1 W1 hW1 (by simpa using hW13)
    rw [ns_values h1 h2] at this
    simp only [Matrix.cons_val_one, Matrix.cons_val_zero] at this
    rw [← this]
    have e9 : W1 ^ 2 * W1 ^ 7 = 0.75 ^ 3 := by rw [← hW13]; ring
    linear_combination (-(64 / 27) * (r0 + r1 * W1 + r2 * W1 ^ 2)) * e9
  have q2 : r0 + r1 + r2 = nsF2 (etaOf theta) := by
    have := hcol 2 1 one_pos (by simp)
    rw [ns_values h1 h2] at this
    simpa using this
  norm_num at bW0 bW1
  obtain ⟨n1, n2⟩ := newton_form (by linarith) (by linarith) (by linarith) q0 q1 q2
  change r1 + r2 * (1 + W1) = nsS1 (nsF1 (etaOf theta)) (nsF2 (etaOf theta)) W1 at n1
  rw [show (nsF2 (etaOf theta) - 64 / 27 * nsF1 (etaOf theta) * W1 ^ 2) / (1 - W1) =
    nsS1 (nsF1 (etaOf theta)) (nsF2 (etaOf theta)) W1 from rfl] at n2
  change r2 = nsS2 (nsF0 (etaOf theta)) (nsF1 (etaOf theta)) (nsF2 (etaOf theta)) W0 W1 at n2
  -- the post-Newtonian part
  have hPN : ∀ w : ℝ, (inspiral_Amp_PN theta).A0 + (inspiral_Amp_PN theta).A2 * (c * w) ^ 2
      + (inspiral_Amp_PN theta).A3 * (c * w) ^ 3 + (inspiral_Amp_PN theta).A4 * (c * w) ^ 4
      + (inspiral_Amp_PN theta).A5 * (c * w) ^ 5 + (inspiral_Amp_PN theta).A6 * (c * w) ^ 6 =
      nsPN (etaOf theta) π (w * (p * c)) := by
    intro w
    obtain ⟨b2, b3, b4, b5, b6⟩ := ns_PNcoeffs h1 h2
    have e2 := pow_thirds Real.pi_pos hpeq 2
    have e4 := pow_thirds Real.pi_pos hpeq 4
    have e5 := pow_thirds Real.pi_pos hpeq 5
    push_cast at e2 e4 e5
    rw [b2, b3, b4, b5, b6, e2, e4, e5, show π ^ 2 * ((-1242641879927 + 12 * etaOf theta * (545384828789 - 21384760320 * π ^ 2 +
      etaOf theta * (-90967773596 + 27026893936 * etaOf theta))) / 60085960704) = p ^ 6 * ((-1242641879927 + 12 * etaOf theta *
      (545384828789 - 21384760320 * π ^ 2 + etaOf theta * (-90967773596 + 27026893936 * etaOf theta))) / 60085960704) by
      rw [← hp3]; ring]
    unfold nsPN
    change 1 + _ + _ + _ + _ + _ = _
    ring
  have hsl := ins_logslope theta PhenomX_amp_coeff_table hF1' hins
  have hi1 : get_inspiral_Amp (ampMatchIN theta) theta PhenomX_amp_coeff_table = nsPN (etaOf theta) π (p * c) + nsF2 (etaOf theta) := by
    have := hins 1 one_pos
    rw [hPN 1] at this
    rw [← q2]
    simpa using this
  have hs1 : 3 * (ampMatchIN theta * deriv (fun x => get_inspiral_Amp x theta PhenomX_amp_coeff_table) (ampMatchIN theta)) =
      nsPN' (etaOf theta) π (p * c) + 7 * nsF2 (etaOf theta) + nsS1 (nsF1 (etaOf theta)) (nsF2 (etaOf theta)) W1 +
        (1 - W1) * nsS2 (nsF0 (etaOf theta)) (nsF1 (etaOf theta)) (nsF2 (etaOf theta)) W0 W1 := by
    rw [hsl]
    obtain ⟨b2, b3, b4, b5, b6⟩ := ns_PNcoeffs h1 h2
    have e2 := pow_thirds Real.pi_pos hpeq 2
    have e4 := pow_thirds Real.pi_pos hpeq 4
    have e5 := pow_thirds Real.pi_pos hpeq 5
    push_cast at e2 e4 e5
    rw [b2, b3, b4, b5, b6, e2, e4, e5, show π ^ 2 * ((-1242641879927 + 12 * etaOf theta * (545384828789 - 21384760320 * π ^ 2 +
      etaOf theta * (-90967773596 + 27026893936 * etaOf theta))) / 60085960704) = p ^ 6 * ((-1242641879927 + 12 * etaOf theta *
      (545384828789 - 21384760320 * π ^ 2 + etaOf theta * (-90967773596 + 27026893936 * etaOf theta))) / 60085960704) by
      rw [← hp3]; ring, ← n1, ← n2, ← q2]
    unfold nsPN'
    ring
  -- the ringdown frequency
  have hR : ampPeak theta PhenomX_amp_coeff_table ≤ 0.0605 + 0.125 * etaOf theta := by
    have := ns_fRD (etaOf theta) (spinOf theta) (1 - spinOf theta) (eradOf theta) he hsp rfl (ns_erad h1 h2)
    have hc : (cut theta).fRD = fRDof (spinOf theta) (eradOf theta) := by unfold cut; rw [cutoffs_eq]
    rw [hc, fRDof_eq] at hF4
    linarith
  have kF1 : ampMatchIN theta ^ ((1 : ℝ) / 6) ≤ 0.57 := by
    refine root6_le hF1'.le (by norm_num) ?_
    have h3 : (p * c) ^ 3 ≤ (0.388 + 0.17 * 0.25 + 0.04) ^ 3 := pow_le_pow_left₀ (by positivity) (by linarith only [hv, he.2, hδr.2]) 3
    have h4 := mul_le_mul_of_nonneg_right hpi1 hF1'.le
    rw [hv3] at h3
    norm_num at h3 h4 ⊢
    linarith only [h3, h4]
  have kF4 : ampPeak theta PhenomX_amp_coeff_table ^ ((1 : ℝ) / 6) ≤ 0.69 := by
    refine root6_le hF4'.le (by norm_num) ?_
    have := he.2
    norm_num at hR this ⊢
    linarith only [hR, this]
  have k1 : 0 < ampMatchIN theta ^ ((1 : ℝ) / 6) := Real.rpow_pos_of_pos hF1' _
  have k4 : 0 < ampPeak theta PhenomX_amp_coeff_table ^ ((1 : ℝ) / 6) := Real.rpow_pos_of_pos hF4' _
  have hpos : ∀ x, 0 < x → x ≤ ampMatchIN theta → 0 < get_inspiral_Amp x theta PhenomX_amp_coeff_table := by
    intro x hx hxF
    obtain ⟨w, hw, hw3, -⟩ := cube_root (div_pos hx hF1')
    have hxw : x = ampMatchIN theta * w ^ 3 := by rw [hw3, mul_div_cancel₀ _ hF1'.ne']
    have hw1 : w ≤ 1 := by
      by_contra hlt
      push Not at hlt
      have := one_lt_pow₀ hlt (n := 3) (by norm_num)
      rw [hw3, lt_div_iff₀ hF1'] at this
      linarith
    rw [hxw, hins w hw, hPN w]
    have key := ns_ins (etaOf theta) δ w π W0 W1 (w * (p * c)) _ _ _ he hδr ⟨hw.le, hw1⟩ ⟨hpi1, hpi2⟩ (by norm_num; exact bW0)
      (by norm_num; exact bW1) (by rw [hv]) rfl rfl rfl
    rw [← n1, ← n2, ← q2] at key
    refine lt_of_lt_of_eq key ?_
    ring
  have hi0 := hpos _ hF1' le_rfl
  have hslope := ns_slope (etaOf theta) δ π W0 W1 (p * c) _ _ _ he hδr ⟨hpi1, hpi2⟩ (by norm_num; exact bW0)
      (by norm_num; exact bW1) hv rfl rfl rfl
  have hleft := ns_left (etaOf theta) δ π W0 W1 (p * c) _ _ _ _ _ _ he hδr ⟨hpi1, hpi2⟩ (by norm_num; exact bW0)
      (by norm_num; exact bW1) hv rfl rfl rfl rfl rfl rfl
  have hm := ns_mid _ he
  rw [← hs1, ← hi1] at hslope
  rw [← hs1, ← hi1, ← ns_ampMid h1 h2, hv3, mul_div_cancel_left₀ _ Real.pi_pos.ne'] at hleft
  rw [← ns_ampMid h1 h2] at hm
  have hright := ns_right _ _ he rfl
  rw [← ns_ampMid h1 h2, ← ns_v1RD h1 h2] at hright
  have e3 : ∀ x y : ℝ, x - 3 * y / 3 = x - y := fun x y => by ring
  rw [e3] at hleft
  have hK : 0 ≤ 7 / 6 * get_inspiral_Amp (ampMatchIN theta) theta PhenomX_amp_coeff_table -
      ampMatchIN theta * deriv (fun x => get_inspiral_Amp x theta PhenomX_amp_coeff_table) (ampMatchIN theta) := by
    linarith only [hslope]
  have hv0 : 0 < (ringdown_Amp_fits theta PhenomX_amp_coeff_table).2.2 := by rw [ns_v1RD h1 h2]; exact ns_v _ he
  have hrd := rd_of_g_le h hv0 (by rw [ns_gamma2 h1 h2]; linarith only [ns_g2 _ he])
  refine ⟨hpos, hm, hv0, hrd.1, hrd.2, ?_, ?_, ?_⟩
  · linarith only [hK]
  · exact left_of (r := 0.0605 + 0.125 * etaOf theta) k1.le kF1 hm.le hF1'.le (by linarith only [hR, hF1']) (by linarith only [he.1]) hi0.le hK (by linarith only [hleft])
  · rw [pow76 hF4']
    have e1 : ampPeak theta PhenomX_amp_coeff_table ^ ((1 : ℝ) / 6) * ampPeak theta PhenomX_amp_coeff_table ≤
        0.69 * (0.0605 + 0.125 * etaOf theta) := mul_le_mul kF4 hR hF4'.le (by norm_num)
    have e2 := mul_le_mul_of_nonneg_right e1 hm.le
    linarith only [e2, hright]

end XAS
end Ripple

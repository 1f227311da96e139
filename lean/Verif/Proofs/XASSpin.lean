/-
  Helper lemmas: the IMRPhenomXAS amplitude of spinning binaries with mass ratio up to 20 meets the conditions of
  `AmpGood`.
-/
import Verif.Proofs.XASPos
import Verif.Proofs.XASSpinA
import Verif.Proofs.XASSpinB
import Verif.Proofs.XASSpinC
import Verif.Proofs.XASSpinD
import Verif.Proofs.XASSpinE

namespace Ripple
namespace XAS
open Real Set

/-! ### bounds in one variable -/

lemma sp_isco_lo (m u s a t : ℝ) (hm : 2 ≤ m ∧ m ≤ 3) (hu : u = (m ^ 2 - 2 * m + 3) / (m ^ 2 - 3)) (hs : s = 1 + m * (u - 1))
    (ha : a = u * (4 - s) / 3) (ht : t = 1 - a) :
    0 < 1 / (u ^ 3 + a) - (0.00405 / (t + 0.022) + 0.0849 / (t + 0.35)) := by
  affine_bnb [hm] [hu, hs, ha, ht]

lemma sp_isco_hi (m u s a t : ℝ) (hm : 2 ≤ m ∧ m ≤ 3) (hu : u = (m ^ 2 - 2 * m + 3) / (m ^ 2 - 3)) (hs : s = 1 + m * (u - 1))
    (ha : a = u * (4 - s) / 3) (ht : t = 1 - a) :
    0 < 0.0025 - t ∨ 0 < 0.00416 / (t + 0.022) + 0.087 / (t + 0.35) - 1 / (u ^ 3 + a) := by
  affine_bnb [hm] [hu, hs, ha, ht]

lemma sp_q (t n m n' m' : ℝ) (ht : 0.0025 ≤ t ∧ t ≤ 2) (hn : n = 100000 * rN t) (hm : m = 10000 * rD t)
    (hn' : n' = 100000 * dN t) (hm' : m' = 10000 * dD t) :
    0 < (70.5 + t * (1910 + 1610 * t)) / (1 + t * (187.6 + 658.7 * t)) * (n' * m) - n * m' := by
  unfold rN at hn
  unfold rD at hm
  unfold dN at hn'
  unfold dD at hm'
  affine_bnb [ht] [hn, hm, hn', hm']

lemma sp_R (t n m : ℝ) (ht : 0.0025 ≤ t ∧ t ≤ 2) (hn : n = 1000 * rN t) (hm : m = 1000 * rD t) :
    0 < 0.07205 - 0.0146 * t + 0.0078 / (t + 0.1) - n / m := by
  unfold rN at hn
  unfold rD at hm
  affine_bnb [ht] [hn, hm]

/-- the ISCO frequency between two simple functions of the final spin -/
lemma isco_tight {a : ℝ} (h1 : -1 ≤ a) (h2 : a ≤ 0.9975) :
    0.00405 / (1 - a + 0.022) + 0.0849 / (1 - a + 0.35) ≤ π * fISCOof a ∧
    π * fISCOof a ≤ 0.00416 / (1 - a + 0.022) + 0.087 / (1 - a + 0.35) := by
  obtain ⟨u, hr, u1, u3, hau, -⟩ := isco_exists h1 (by norm_num at h2; linarith)
  rw [fISCO_eq hr (by linarith), mul_div_cancel₀ _ Real.pi_pos.ne']
  have hu : 1 < u := by
    rcases u1.lt_or_eq with hl | hl
    · exact hl
    · exfalso
      rw [← hl] at hau
      norm_num [iscoSpin] at hau h2
      linarith
  obtain ⟨s, hs, hs2⟩ : ∃ s, s = sqrt (3 * u ^ 2 - 2) ∧ s ^ 2 = 3 * u ^ 2 - 2 := ⟨_, rfl, Real.sq_sqrt (by nlinarith)⟩
  have hs0 : 0 ≤ s := by rw [hs]; exact Real.sqrt_nonneg _
  have hs1 : s ≤ 3 * u - 2 := by
    refine le_of_pow_le_pow_left₀ two_ne_zero (by linarith) ?_
    nlinarith
  have hs3 : 2 * u - 1 ≤ s := by
    refine le_of_pow_le_pow_left₀ two_ne_zero hs0 ?_
    nlinarith
  have hd : u - 1 ≠ 0 := by linarith
  obtain ⟨m, hm⟩ : ∃ m, m = (s - 1) / (u - 1) := ⟨_, rfl⟩
  have hms : s = 1 + m * (u - 1) := by rw [hm, div_mul_cancel₀ _ hd]; ring
  have hm2 : 2 ≤ m := by rw [hm, le_div_iff₀ (by linarith)]; linarith
  have hm3 : m ≤ 3 := by rw [hm, div_le_iff₀ (by linarith)]; linarith
  have hmu : u = (m ^ 2 - 2 * m + 3) / (m ^ 2 - 3) := by
    have : m ^ 2 - 3 ≠ 0 := by nlinarith
    rw [eq_div_iff this]
    refine mul_left_cancel₀ hd ?_
    have := hs2
    rw [hms] at this
    linear_combination this
  have ha' : a = u * (4 - s) / 3 := by rw [hau, iscoSpin, ← hs]
  have lo := sp_isco_lo m u s a (1 - a) ⟨hm2, hm3⟩ hmu hms ha' rfl
  have hi := sp_isco_hi m u s a (1 - a) ⟨hm2, hm3⟩ hmu hms ha' rfl
  refine ⟨by linarith, ?_⟩
  rcases hi with hi | hi
  · exfalso; norm_num at hi h2; linarith
  · linarith

/-! ### the fits of the shipped table -/

lemma sp_values (theta : Theta) (i : Fin 3) : inspiral_Amp_values theta PhenomX_amp_coeff_table i =
    ![spF0 (etaOf theta) (chipnOf theta) ((theta.chi1 - theta.chi2) * dOf theta),
      spF1 (etaOf theta) (chipnOf theta) ((theta.chi1 - theta.chi2) * dOf theta),
      spF2 (etaOf theta) (chipnOf theta) ((theta.chi1 - theta.chi2) * dOf theta)] i := by
  change ![ampCV PhenomX_amp_coeff_table 0 (etaOf theta) (chipnOf theta) (theta.chi1 - theta.chi2),
    ampCV PhenomX_amp_coeff_table 1 (etaOf theta) (chipnOf theta) (theta.chi1 - theta.chi2),
    ampCV PhenomX_amp_coeff_table 2 (etaOf theta) (chipnOf theta) (theta.chi1 - theta.chi2)] i = _
  unfold dOf
  fin_cases i <;> simp [ampCV, Amp_Nospin_CV, Amp_Eqspin_CV, Amp_Uneqspin_CV, PhenomX_amp_coeff_table, PhenomX_amp_coeff_table_rows,
    amp_eqspin_indx, amp_uneqspin_indx, spF0, spF1, spF2] <;> ring

lemma sp_ampMid (theta : Theta) : ampMid theta =
    spMid (etaOf theta) (stotOf theta) ((theta.chi1 - theta.chi2) * dOf theta) := by
  unfold ampMid dOf
  simp [ampCV, Amp_Nospin_CV, Amp_Eqspin_CV, Amp_Uneqspin_CV, PhenomX_amp_coeff_table, PhenomX_amp_coeff_table_rows,
    amp_eqspin_indx, amp_uneqspin_indx, spMid]
  ring

lemma sp_gamma2 (theta : Theta) : (ringdown_Amp_fits theta PhenomX_amp_coeff_table).1 =
    spG2 (etaOf theta) (stotOf theta) ((theta.chi1 - theta.chi2) * dOf theta) := by
  rw [gamma2_eq]
  unfold spG2
  ring

lemma sp_gamma3 (theta : Theta) : (ringdown_Amp_fits theta PhenomX_amp_coeff_table).2.1 =
    spG3 (etaOf theta) (stotOf theta) := by
  rw [gamma3_eq]
  unfold spG3
  ring

lemma sp_v1RD (theta : Theta) : (ringdown_Amp_fits theta PhenomX_amp_coeff_table).2.2 =
    spV (etaOf theta) (stotOf theta) ((theta.chi1 - theta.chi2) * dOf theta) := by
  change ampCV PhenomX_amp_coeff_table 6 (etaOf theta) (stotOf theta) (theta.chi1 - theta.chi2) = _
  unfold dOf
  simp [ampCV, Amp_Nospin_CV, Amp_Eqspin_CV, Amp_Uneqspin_CV, PhenomX_amp_coeff_table, PhenomX_amp_coeff_table_rows,
    amp_eqspin_indx, amp_uneqspin_indx, spV]
  ring

lemma sp_stot {theta : Theta} : stotOf theta =
    ((1 + dOf theta) ^ 2 * theta.chi1 + (1 - dOf theta) ^ 2 * theta.chi2) / (2 * (1 + dOf theta ^ 2)) := by
  unfold stotOf
  generalize dOf theta = d
  have h1 : 1 + d ^ 2 ≠ 0 := by positivity
  have h2 : (0.5 * (1 + d)) ^ 2 + (0.5 * (1 - d)) ^ 2 = (1 + d ^ 2) / 2 := by ring
  rw [h2]
  field_simp
  ring

lemma sp_PNcoeffs (theta : Theta) :
    (inspiral_Amp_PN theta).A2 = (-969 + 1804 * etaOf theta) / 672 * π ^ ((2 : ℝ) / 3) ∧
    (inspiral_Amp_PN theta).A3 = spA3 (etaOf theta) (dOf theta) theta.chi1 theta.chi2 * π ∧
    (inspiral_Amp_PN theta).A4 = spA4 (etaOf theta) (dOf theta) theta.chi1 theta.chi2 * π ^ ((4 : ℝ) / 3) ∧
    (inspiral_Amp_PN theta).A5 = spA5 (etaOf theta) (dOf theta) theta.chi1 theta.chi2 π * π ^ ((5 : ℝ) / 3) ∧
    (inspiral_Amp_PN theta).A6 = spA6 (etaOf theta) (dOf theta) theta.chi1 theta.chi2 π * π ^ 2 := by
  refine ⟨rfl, ?_, ?_, ?_, ?_⟩
  all_goals unfold inspiral_Amp_PN
  all_goals simp only [PI]
  all_goals rw [show theta.m1 * gt * (theta.m2 * gt) / (theta.m1 * gt + theta.m2 * gt) ^ 2 = etaOf theta from rfl]
  all_goals rw [show Real.sqrt (1 - 4 * etaOf theta) = dOf theta from rfl]
  · unfold spA3; ring
  · unfold spA4; norm_num; left; ring
  · unfold spA5; ring
  · unfold spA6; norm_num; ring

/-- the part of the MECO frequency which depends on the spin difference -/
lemma meco_split (e d S x : ℝ) : fMECOof e d S x = fMECOof e 0 S 0 +
    (x ^ 2 * (0.00034375176678815234 + 0.000016343732281057392 * e) * e ^ 2 + x * d * e * (0.08064665214195679 * e ^ 2 +
      e * (-0.028476219509487793 - 0.005746537021035632 * S) - 0.0011713735642446144 * S)) := by
  unfold fMECOof
  ring

/-! ### the end of the inspiral region -/

/-- lower bound of the cube root of `π` times the end of the inspiral region -/
noncomputable def spW (e S : ℝ) : ℝ := 0.367 + 0.176 * e + S * (0.093 - 0.046 * e + S * (0.045 + 0.024 * S))

lemma spin_hi {theta : Theta} (h : theta.Physical) (hd : dOf theta ≤ 0.905) : 0.0025 < 1 - spinOf theta := by
  have := sp_ahi (dOf theta) theta.chi1 theta.chi2 (etaOf theta) (stotOf theta) _ _ (spinOf theta) _ ⟨(dOf_range h).1, hd⟩
    (abs_le.1 h.chi1_le) (abs_le.1 h.chi2_le) (dOf_range h).2.2 sp_stot rfl rfl (spinOf_eq h) rfl
  linarith

lemma eta_lo {theta : Theta} (h : theta.Physical) (hd : dOf theta ≤ 0.905) : 0.045 ≤ etaOf theta ∧ etaOf theta ≤ 0.25 := by
  refine ⟨?_, (eta_box h).2⟩
  obtain ⟨d0, -, he⟩ := dOf_range h
  rw [he]
  norm_num at hd ⊢
  nlinarith

lemma sp_F1 {theta : Theta} (h : theta.Physical) (hd : dOf theta ≤ 0.905) :
    spW (etaOf theta) (chipnOf theta) ^ 3 ≤ π * ampMatchIN theta ∧
    π * ampMatchIN theta ≤ (spW (etaOf theta) (chipnOf theta) + 0.059) ^ 3 := by
  have hIN : π * ampMatchIN theta = 0.75 * π * fMECOof (etaOf theta) (dOf theta) (chipnOf theta) (theta.chi1 - theta.chi2)
      + 0.25 * (π * fISCOof (spinOf theta)) := by
    change π * (fMECOof (etaOf theta) (dOf theta) (chipnOf theta) (theta.chi1 - theta.chi2) + 0.25 * (fISCOof (spinOf theta) -
      fMECOof (etaOf theta) (dOf theta) (chipnOf theta) (theta.chi1 - theta.chi2))) = _
    ring
  have ht := spin_hi h hd
  obtain ⟨i1, i2⟩ := isco_tight (spin_gt h).le (by norm_num at ht ⊢; linarith)
  have hm0 := meco_lo h
  have mlo := sp_mlo _ _ _ (eta_lo h hd) (chipnOf_range h) rfl
  have mhi := sp_mhi _ _ _ (eta_lo h hd) (chipnOf_range h) rfl
  have lo := sp_Flo (dOf theta) theta.chi1 theta.chi2 (etaOf theta) (chipnOf theta) (stotOf theta) _ _ (spinOf theta) _ _ _ _
    ⟨(dOf_range h).1, hd⟩ (abs_le.1 h.chi1_le) (abs_le.1 h.chi2_le) (dOf_range h).2.2 rfl sp_stot rfl rfl (spinOf_eq h) rfl rfl rfl rfl
  have hi := sp_Fhi (dOf theta) theta.chi1 theta.chi2 (etaOf theta) (chipnOf theta) (stotOf theta) _ _ (spinOf theta) _ _ _ _
    ⟨(dOf_range h).1, hd⟩ (abs_le.1 h.chi1_le) (abs_le.1 h.chi2_le) (dOf_range h).2.2 rfl sp_stot rfl rfl (spinOf_eq h) rfl rfl rfl rfl
  rw [hIN, show spW (etaOf theta) (chipnOf theta) + 0.059 = 0.426 + 0.176 * etaOf theta + chipnOf theta * (0.093 - 0.046 *
    etaOf theta + chipnOf theta * (0.045 + 0.024 * chipnOf theta)) by unfold spW; ring]
  unfold spW
  rw [meco_split] at hm0 ⊢
  generalize (theta.chi1 - theta.chi2) ^ 2 * (0.00034375176678815234 + 0.000016343732281057392 * etaOf theta) * etaOf theta ^ 2 +
    (theta.chi1 - theta.chi2) * dOf theta * etaOf theta * (0.08064665214195679 * etaOf theta ^ 2 +
      etaOf theta * (-0.028476219509487793 - 0.005746537021035632 * chipnOf theta) - 0.0011713735642446144 * chipnOf theta) = X at *
  generalize fMECOof (etaOf theta) 0 (chipnOf theta) 0 = M at *
  generalize (0.367 + 0.176 * etaOf theta + chipnOf theta * (0.093 - 0.046 * etaOf theta + chipnOf theta * (0.045 + 0.024 *
    chipnOf theta))) ^ 3 = v at *
  generalize (0.426 + 0.176 * etaOf theta + chipnOf theta * (0.093 - 0.046 * etaOf theta + chipnOf theta * (0.045 + 0.024 *
    chipnOf theta))) ^ 3 = v' at *
  generalize (0.0175 + 0.0112 * etaOf theta) / (1 - chipnOf theta * (0.512 + 0.36 * etaOf theta)) = b at *
  generalize (0.01905 + 0.0124 * etaOf theta) / (1 - chipnOf theta * (0.512 + 0.36 * etaOf theta)) = b' at *
  generalize 0.00405 / (1 - spinOf theta + 0.022) + 0.0849 / (1 - spinOf theta + 0.35) = u at *
  generalize 0.00416 / (1 - spinOf theta + 0.022) + 0.087 / (1 - spinOf theta + 0.35) = u' at *
  generalize π * fISCOof (spinOf theta) = I at *
  have hp1 : (2.35612 : ℝ) ≤ 0.75 * π := by linarith [Real.pi_gt_d6]
  have hp2 : 0.75 * π ≤ (2.3562 : ℝ) := by linarith [Real.pi_lt_d6]
  norm_num at hm0
  have k1 := mul_le_mul_of_nonneg_right hp1 (show 0 ≤ M + X by linarith)
  have k2 := mul_le_mul_of_nonneg_right hp2 (show 0 ≤ M + X by linarith)
  constructor <;> linarith

/-! ### the ringdown part -/

/-- the ringdown amplitude at the start of its region when `gamma2 > 1` -/
lemma rd_of_g_gt {theta : Theta} (h : theta.Physical) (hv : 0 < (ringdown_Amp_fits theta PhenomX_amp_coeff_table).2.2)
    (hg : 1 < (ringdown_Amp_fits theta PhenomX_amp_coeff_table).1) {Q : ℝ}
    (hQ : (cut theta).fRD / (cut theta).fdamp ≤ Q)
    (hs : (Q * (ringdown_Amp_fits theta PhenomX_amp_coeff_table).1 / (ringdown_Amp_fits theta PhenomX_amp_coeff_table).2.1 - 1) *
      ((ringdown_Amp_fits theta PhenomX_amp_coeff_table).1 ^ 2 - 1) / ((ringdown_Amp_fits theta PhenomX_amp_coeff_table).1 ^ 2 + 1)
      ≤ 29 / 6) :
    deriv (fun x => (get_mergerringdown_Amp x theta PhenomX_amp_coeff_table).1) (ampPeak theta PhenomX_amp_coeff_table) ≤ 0 ∧
    (ampPeak theta PhenomX_amp_coeff_table - ampMatchIN theta) *
    (7 / 6 * (ringdown_Amp_fits theta PhenomX_amp_coeff_table).2.2 - ampPeak theta PhenomX_amp_coeff_table *
      deriv (fun x => (get_mergerringdown_Amp x theta PhenomX_amp_coeff_table).1) (ampPeak theta PhenomX_amp_coeff_table)) ≤
    6 * ampPeak theta PhenomX_amp_coeff_table * (ringdown_Amp_fits theta PhenomX_amp_coeff_table).2.2 := by
  obtain ⟨-, -, -, ⟨hF1, hF, -, -⟩, hd, -, hg3⟩ := C92_regions_ordered theta h
  have hw : 0 < (cut theta).fdamp * (ringdown_Amp_fits theta PhenomX_amp_coeff_table).2.1 := mul_pos hd hg3
  have hpk : ampPeak theta PhenomX_amp_coeff_table = (cut theta).fRD - (cut theta).fdamp *
      (ringdown_Amp_fits theta PhenomX_amp_coeff_table).2.1 / (ringdown_Amp_fits theta PhenomX_amp_coeff_table).1 := by
    change ampRDMin (cut theta).fRD (cut theta).fdamp _ _ = _
    unfold ampRDMin
    rw [if_neg (not_le.2 hg), abs_of_nonneg]
    · ring
    · have g3 := gamma3_range h
      have hR := fRD_range h
      have hD := fdamp_range h
      rw [show cut theta = get_cutoff_fMs theta.m1 theta.m2 theta.chi1 theta.chi2 from rfl, cutoffs_eq] at hw ⊢
      simp only at hw ⊢
      have hwk : fdampOf (spinOf theta) (eradOf theta) * (ringdown_Amp_fits theta PhenomX_amp_coeff_table).2.1 ≤ 29 / 1760 * (7 / 5) := by
        norm_num at hD g3
        exact mul_le_mul hD.2.le g3.2.le (by linarith) (by norm_num)
      have := div_le_self hw.le hg.le
      rw [mul_neg_one, neg_mul, neg_div]
      norm_num at hR
      linarith
  have hval := rd_Amp_peak theta PhenomX_amp_coeff_table hw.ne'
  have hfun : (fun x => (get_mergerringdown_Amp x theta PhenomX_amp_coeff_table).1) = fun x => PhenomD.lor
      ((ringdown_Amp_fits theta PhenomX_amp_coeff_table).2.2 / ((cut theta).fdamp * (ringdown_Amp_fits theta PhenomX_amp_coeff_table).2.1) *
        ((ampPeak theta PhenomX_amp_coeff_table - (cut theta).fRD) ^ 2 + ((cut theta).fdamp *
        (ringdown_Amp_fits theta PhenomX_amp_coeff_table).2.1) ^ 2) * Real.exp ((ampPeak theta PhenomX_amp_coeff_table - (cut theta).fRD) *
        (ringdown_Amp_fits theta PhenomX_amp_coeff_table).1 / ((cut theta).fdamp * (ringdown_Amp_fits theta PhenomX_amp_coeff_table).2.1)))
      (ringdown_Amp_fits theta PhenomX_amp_coeff_table).1
      ((cut theta).fdamp * (ringdown_Amp_fits theta PhenomX_amp_coeff_table).2.1) (x - (cut theta).fRD) := by
    funext x
    exact rd_Amp_eq x theta PhenomX_amp_coeff_table
  have hv' := congrFun hfun (ampPeak theta PhenomX_amp_coeff_table)
  rw [hval] at hv'
  rw [hfun]
  generalize (ringdown_Amp_fits theta PhenomX_amp_coeff_table).2.2 / ((cut theta).fdamp * (ringdown_Amp_fits theta PhenomX_amp_coeff_table).2.1) *
        ((ampPeak theta PhenomX_amp_coeff_table - (cut theta).fRD) ^ 2 + ((cut theta).fdamp *
        (ringdown_Amp_fits theta PhenomX_amp_coeff_table).2.1) ^ 2) * Real.exp ((ampPeak theta PhenomX_amp_coeff_table - (cut theta).fRD) *
        (ringdown_Amp_fits theta PhenomX_amp_coeff_table).1 / ((cut theta).fdamp * (ringdown_Amp_fits theta PhenomX_amp_coeff_table).2.1)) = K at *
  clear hfun hval
  generalize (ringdown_Amp_fits theta PhenomX_amp_coeff_table).2.2 = v at *
  generalize (ringdown_Amp_fits theta PhenomX_amp_coeff_table).2.1 = k at *
  generalize (ringdown_Amp_fits theta PhenomX_amp_coeff_table).1 = g at *
  generalize ampPeak theta PhenomX_amp_coeff_table = F4 at *
  generalize ampMatchIN theta = F1 at *
  generalize (cut theta).fRD = R at *
  generalize (cut theta).fdamp = fd at *
  have hder : deriv (fun x => PhenomD.lor K g (fd * k) (x - R)) F4 = -(v * (g * (g ^ 2 - 1) / (g ^ 2 + 1)) / (fd * k)) := by
    have hu : F4 - R = -(fd * k / g) := by rw [hpk]; ring
    have := (PhenomD.lor_deriv (g1 := K) (g2 := g) hw (F4 - R)).comp_sub_const F4 R
    rw [this.deriv, hv']
    unfold PhenomD.lor
    rw [hu]
    generalize fd * k = w at *
    have : g ≠ 0 := by linarith
    have : g ^ 2 + 1 ≠ 0 := by positivity
    have : 1 + g ^ 2 ≠ 0 := by positivity
    generalize Real.exp (-(-(w / g)) * g / w) = E at *
    field_simp
    ring
  have hg1 : 0 < g := by linarith
  have hG : 0 ≤ (g ^ 2 - 1) / (g ^ 2 + 1) := div_nonneg (by nlinarith) (by positivity)
  rw [hder]
  have hX : F4 * (g * (g ^ 2 - 1) / (g ^ 2 + 1)) / (fd * k) ≤ 29 / 6 := by
    refine le_trans ?_ hs
    have e1 : F4 * (g * (g ^ 2 - 1) / (g ^ 2 + 1)) / (fd * k) = (R / fd * g / k - 1) * ((g ^ 2 - 1) / (g ^ 2 + 1)) := by
      rw [hpk]
      have := hd.ne'
      have := hg3.ne'
      have := hg1.ne'
      have : g ^ 2 + 1 ≠ 0 := by positivity
      field_simp
    rw [e1, mul_div_assoc (Q * g / k - 1)]
    refine mul_le_mul_of_nonneg_right ?_ hG
    have : R / fd * g / k ≤ Q * g / k := by gcongr
    linarith
  have hD : 0 ≤ v * (g * (g ^ 2 - 1) / (g ^ 2 + 1)) / (fd * k) := by
    rw [mul_div_assoc g]
    positivity
  refine ⟨by linarith, ?_⟩
  have e2 : 7 / 6 * v - F4 * -(v * (g * (g ^ 2 - 1) / (g ^ 2 + 1)) / (fd * k)) =
      v * (7 / 6 + F4 * (g * (g ^ 2 - 1) / (g ^ 2 + 1)) / (fd * k)) := by ring
  rw [e2]
  norm_num at hF1
  have h4 : 0 < F4 := by linarith
  have e3 : v * (7 / 6 + F4 * (g * (g ^ 2 - 1) / (g ^ 2 + 1)) / (fd * k)) ≤ v * 6 := mul_le_mul_of_nonneg_left (by linarith) hv.le
  have e4 : 0 ≤ v * (7 / 6 + F4 * (g * (g ^ 2 - 1) / (g ^ 2 + 1)) / (fd * k)) := by
    have : 0 ≤ F4 * (g * (g ^ 2 - 1) / (g ^ 2 + 1)) / (fd * k) := by
      rw [mul_div_assoc g]
      positivity
    positivity
  calc _ ≤ F4 * (v * (7 / 6 + F4 * (g * (g ^ 2 - 1) / (g ^ 2 + 1)) / (fd * k))) := mul_le_mul_of_nonneg_right (by linarith) e4
    _ ≤ F4 * (v * 6) := mul_le_mul_of_nonneg_left e3 h4.le
    _ = _ := by ring

lemma sp_rd {theta : Theta} (h : theta.Physical) (hd : dOf theta ≤ 0.905)
    (hv : 0 < (ringdown_Amp_fits theta PhenomX_amp_coeff_table).2.2) :
    deriv (fun x => (get_mergerringdown_Amp x theta PhenomX_amp_coeff_table).1) (ampPeak theta PhenomX_amp_coeff_table) ≤ 0 ∧
    (ampPeak theta PhenomX_amp_coeff_table - ampMatchIN theta) *
    (7 / 6 * (ringdown_Amp_fits theta PhenomX_amp_coeff_table).2.2 - ampPeak theta PhenomX_amp_coeff_table *
      deriv (fun x => (get_mergerringdown_Amp x theta PhenomX_amp_coeff_table).1) (ampPeak theta PhenomX_amp_coeff_table)) ≤
    6 * ampPeak theta PhenomX_amp_coeff_table * (ringdown_Amp_fits theta PhenomX_amp_coeff_table).2.2 := by
  rcases le_or_gt (ringdown_Amp_fits theta PhenomX_amp_coeff_table).1 1 with hg | hg
  · exact rd_of_g_le h hv hg
  have ht := spin_hi h hd
  have ht2 : 1 - spinOf theta ≤ 2 := by linarith [spin_gt h]
  have ht' : 0 ≤ 1 - spinOf theta ∧ 1 - spinOf theta ≤ 2 := ⟨by norm_num at ht; linarith, ht2⟩
  have hst := sp_steep (dOf theta) theta.chi1 theta.chi2 (etaOf theta) (stotOf theta) _ _ (spinOf theta) _ _ _ _
    ⟨(dOf_range h).1, hd⟩ (abs_le.1 h.chi1_le) (abs_le.1 h.chi2_le) (dOf_range h).2.2 sp_stot rfl rfl (spinOf_eq h) rfl
    (sp_gamma2 theta) (sp_gamma3 theta) rfl
  have hq := sp_q (1 - spinOf theta) _ _ _ _ ⟨ht.le, ht2⟩ rfl rfl rfl rfl
  refine rd_of_g_gt h hv hg (Q := (70.5 + (1 - spinOf theta) * (1910 + 1610 * (1 - spinOf theta))) /
    (1 + (1 - spinOf theta) * (187.6 + 658.7 * (1 - spinOf theta)))) ?_ ?_
  · have hD := (fdamp_range h).1
    have hE := erad_range h
    rw [show cut theta = get_cutoff_fMs theta.m1 theta.m2 theta.chi1 theta.chi2 from rfl, cutoffs_eq]
    simp only
    rw [fdampOf_eq] at hD
    rw [fRDof_eq, fdampOf_eq]
    have hrD := rD_pos _ ht'
    have hdD := dD_pos _ ht'
    have h1E : 0 < 1 - eradOf theta := by norm_num at hE; linarith
    generalize (70.5 + (1 - spinOf theta) * (1910 + 1610 * (1 - spinOf theta))) /
      (1 + (1 - spinOf theta) * (187.6 + 658.7 * (1 - spinOf theta))) = Q at *
    generalize 1 - eradOf theta = o at *
    generalize rN (1 - spinOf theta) = n at *
    generalize rD (1 - spinOf theta) = m at *
    generalize dN (1 - spinOf theta) = n' at *
    generalize dD (1 - spinOf theta) = m' at *
    have hn' : 0 < n' := by
      by_contra hneg
      have : n' / m' / o ≤ 0 := div_nonpos_of_nonpos_of_nonneg (div_nonpos_of_nonpos_of_nonneg (not_lt.1 hneg) hdD.le) h1E.le
      norm_num at hD
      linarith
    have e1 : n / m / o / (n' / m' / o) = n * m' / (n' * m) := by field_simp
    rw [e1, div_le_iff₀ (by positivity)]
    linarith
  · rcases hst with hst | hst
    · exfalso; linarith
    · linarith

lemma sp_fRD {theta : Theta} (h : theta.Physical) (hd : dOf theta ≤ 0.905) : (cut theta).fRD ≤
    (0.07205 - 0.0146 * (1 - spinOf theta) + 0.0078 / (1 - spinOf theta + 0.1)) / (1 - eradOf theta) := by
  have ht := spin_hi h hd
  have ht2 : 1 - spinOf theta ≤ 2 := by linarith [spin_gt h]
  have hE := erad_range h
  have hR := sp_R (1 - spinOf theta) _ _ ⟨ht.le, ht2⟩ rfl rfl
  rw [show cut theta = get_cutoff_fMs theta.m1 theta.m2 theta.chi1 theta.chi2 from rfl, cutoffs_eq]
  simp only
  rw [fRDof_eq]
  rw [mul_div_mul_left _ _ (by norm_num)] at hR
  refine div_le_div_of_nonneg_right (by linarith) ?_
  norm_num at hE
  linarith

/-! ### all conditions hold -/

lemma sp_left (d x y δ p W0 W1 e S St k f0 f1 f2 A3 A4 A5 A6 B C v i s z a t E R m : ℝ) (hd : 0 ≤ d ∧ d ≤ 0.905)
    (hx : -1 ≤ x ∧ x ≤ 1) (hy : -1 ≤ y ∧ y ≤ 1) (he : e = (1 - d ^ 2) / 4)
    (hS : S = (0.5 * (1 + d) * x + 0.5 * (1 - d) * y - 38 / 113 * e * (x + y)) / (1 - 76 * e / 113))
    (hSt : St = ((1 + d) ^ 2 * x + (1 - d) ^ 2 * y) / (2 * (1 + d ^ 2)))
    (hk : k = (x - y) * d) (hz : z = (x - y) ^ 2) (ha : a = St + e * spinG e St k z) (ht : t = 1 - a) (hδ : 0 ≤ δ ∧ δ ≤ 0.059)
    (hp : 3.14159 ≤ p ∧ p ≤ 3.1416) (hW0 : 0.7937 ≤ W0 ∧ W0 ≤ 0.79371) (hW1 : 0.90856 ≤ W1 ∧ W1 ≤ 0.90857)
    (h0 : f0 = spF0 e S k) (h1 : f1 = spF1 e S k) (h2 : f2 = spF2 e S k)
    (hA3 : A3 = spA3 e d x y) (hA4 : A4 = spA4 e d x y) (hA5 : A5 = spA5 e d x y p) (hA6 : A6 = spA6 e d x y p)
    (hB : B = (f2 - 64 / 27 * f1 * W1 ^ 2) / (1 - W1))
    (hC : C = (B - (64 / 27 * f1 * W1 ^ 2 - 8 * f0 * W0 ^ 2) / (W1 - W0)) / (1 - W0))
    (hv : v = 0.367 + 0.176 * e + S * (0.093 - 0.046 * e + S * (0.045 + 0.024 * S)) + δ)
    (hi : i = 1 + v ^ 2 * ((-969 + 1804 * e) / 672 + v * (A3 + v * (A4 + v * (A5 + v * A6)))) + f2)
    (hs : s = v ^ 2 * (2 * ((-969 + 1804 * e) / 672) + v * (3 * A3 + v * (4 * A4 + v * (5 * A5 + v * (6 * A6))))) + 7 * f2 + B
      + (1 - W1) * C) (hm : m = spMid e St k) (hE : E = e * eradG e St k z)
    (hR : R = (0.07205 - 0.0146 * t + 0.0078 / (t + 0.1)) / (1 - E)) :
    0 < 16 * i ^ 2 - 0.2547 * (1 + v / 0.38) * m * (5 * (v ^ 3 / p) * i + R * (7 / 6 * i - s / 3)) := by
  rcases le_total d 0.5 with d1 | d1
  · exact sp_left1 d x y δ p W0 W1 e S St k f0 f1 f2 A3 A4 A5 A6 B C v i s z a t E R m ⟨hd.1, d1⟩ hx hy he hS hSt hk hz ha ht hδ hp
      hW0 hW1 h0 h1 h2 hA3 hA4 hA5 hA6 hB hC hv hi hs hm hE hR
  rcases le_total d 0.7 with d2 | d2
  · exact sp_left2 d x y δ p W0 W1 e S St k f0 f1 f2 A3 A4 A5 A6 B C v i s z a t E R m ⟨d1, d2⟩ hx hy he hS hSt hk hz ha ht hδ hp
      hW0 hW1 h0 h1 h2 hA3 hA4 hA5 hA6 hB hC hv hi hs hm hE hR
  rcases le_total d 0.82 with d3 | d3
  · exact sp_left3 d x y δ p W0 W1 e S St k f0 f1 f2 A3 A4 A5 A6 B C v i s z a t E R m ⟨d2, d3⟩ hx hy he hS hSt hk hz ha ht hδ hp
      hW0 hW1 h0 h1 h2 hA3 hA4 hA5 hA6 hB hC hv hi hs hm hE hR
  · exact sp_left4 d x y δ p W0 W1 e S St k f0 f1 f2 A3 A4 A5 A6 B C v i s z a t E R m ⟨d3, hd.2⟩ hx hy he hS hSt hk hz ha ht hδ hp
      hW0 hW1 h0 h1 h2 hA3 hA4 hA5 hA6 hB hC hv hi hs hm hE hR

/-- the sixth root of the end of the inspiral region -/
lemma root6_F1 {F v : ℝ} (hF : 0 ≤ F) (hv : 0 < v) (h : v ^ 3 = π * F) : F ^ ((1 : ℝ) / 6) ≤ 0.2547 * (1 + v / 0.38) := by
  have h0 : 0 ≤ 0.2547 * (1 + v / 0.38) := by positivity
  refine root6_le hF h0 ?_
  have h1 : 0.68285 * v ≤ (0.2547 * (1 + v / 0.38)) ^ 2 := by
    have := sq_nonneg (v - 0.38)
    norm_num at *
    nlinarith
  have h2 : (0.68285 * v) ^ 3 ≤ ((0.2547 * (1 + v / 0.38)) ^ 2) ^ 3 := pow_le_pow_left₀ (by positivity) h1 3
  rw [← pow_mul, mul_pow, h] at h2
  refine le_trans ?_ h2
  have := mul_le_mul_of_nonneg_right (show (3.14159 : ℝ) ≤ π by linarith [Real.pi_gt_d6]) hF
  norm_num at *
  linarith

/-- the sixth root of the start of the ringdown region -/
lemma root6_F4 {F R : ℝ} (hF : 0 ≤ F) (hR : F ≤ R) : F ^ ((1 : ℝ) / 6) ≤ 0.6695 * (1 + (R / 0.09 - 1) / 6) := by
  refine root6_le hF (by norm_num; linarith) ?_
  have h1 := one_add_mul_le_pow (show -2 ≤ (R / 0.09 - 1) / 6 by norm_num; linarith) 6
  rw [mul_pow]
  push_cast at h1
  norm_num at *
  nlinarith

lemma sp_good {theta : Theta} (h : theta.Physical) (hdd : dOf theta ≤ 0.905) : AmpGood theta := by
  obtain ⟨-, -, -, ⟨hF1, hF, hF4, -⟩, -, -, -⟩ := C92_regions_ordered theta h
  have hF1' : 0 < ampMatchIN theta := by norm_num at hF1; linarith
  have hF4' : 0 < ampPeak theta PhenomX_amp_coeff_table := hF1'.trans hF
  have hd : 0 ≤ dOf theta ∧ dOf theta ≤ 0.905 := ⟨(dOf_range h).1, hdd⟩
  have hx := abs_le.1 h.chi1_le
  have hy := abs_le.1 h.chi2_le
  have he := (dOf_range h).2.2
  have hpi : (3.14159 : ℝ) ≤ π ∧ π ≤ (3.1416 : ℝ) := ⟨by linarith [Real.pi_gt_d6], by linarith [Real.pi_lt_d4]⟩
  -- the end of the inspiral
  obtain ⟨c, hc, hc3, hceq⟩ := cube_root hF1'
  obtain ⟨p, hp, hp3, hpeq⟩ := cube_root Real.pi_pos
  have hv3 : (p * c) ^ 3 = π * ampMatchIN theta := by rw [mul_pow, hp3, hc3]
  obtain ⟨F1lo, F1hi⟩ := sp_F1 h hdd
  rw [← hv3] at F1lo F1hi
  have hv0 : 0 < p * c := by positivity
  have hvlo : spW (etaOf theta) (chipnOf theta) ≤ p * c := by
    by_contra hlt
    push Not at hlt
    exact absurd F1lo (not_le.2 (pow_lt_pow_left₀ hlt hv0.le (by norm_num)))
  have hvhi : p * c ≤ spW (etaOf theta) (chipnOf theta) + 0.059 := by
    by_contra hlt
    push Not at hlt
    have hodd : StrictMono fun x : ℝ => x ^ 3 := Odd.strictMono_pow (by decide)
    exact absurd F1hi (not_le.2 (hodd hlt))
  obtain ⟨δ, hδ⟩ : ∃ δ, δ = p * c - spW (etaOf theta) (chipnOf theta) := ⟨_, rfl⟩
  have hδr : 0 ≤ δ ∧ δ ≤ 0.059 := ⟨by linarith, by linarith⟩
  have hv : p * c = 0.367 + 0.176 * etaOf theta + chipnOf theta * (0.093 - 0.046 * etaOf theta + chipnOf theta * (0.045 + 0.024 *
      chipnOf theta)) + δ := by rw [hδ]; unfold spW; ring
  clear F1lo F1hi hvlo hvhi hδ
  -- the collocation nodes
  obtain ⟨W0, hW0, hW03, -⟩ := cube_root (show (0 : ℝ) < 0.5 by norm_num)
  obtain ⟨W1, hW1, hW13, -⟩ := cube_root (show (0 : ℝ) < 0.75 by norm_num)
  have bW0 : 0.7937 ≤ W0 ∧ W0 ≤ 0.79371 :=
    ⟨(lt_of_cube_lt hW0.le (by rw [hW03]; norm_num)).le, (lt_of_cube_lt (by norm_num) (by rw [hW03]; norm_num)).le⟩
  have bW1 : 0.90856 ≤ W1 ∧ W1 ≤ 0.90857 :=
    ⟨(lt_of_cube_lt hW1.le (by rw [hW13]; norm_num)).le, (lt_of_cube_lt (by norm_num) (by rw [hW13]; norm_num)).le⟩
  obtain ⟨r0, r1, r2, hins, hcol⟩ := ins_w theta PhenomX_amp_coeff_table hF1' hc hc3.symm
  obtain ⟨f0, hf0⟩ : ∃ f, f = spF0 (etaOf theta) (chipnOf theta) ((theta.chi1 - theta.chi2) * dOf theta) := ⟨_, rfl⟩
  obtain ⟨f1, hf1⟩ : ∃ f, f = spF1 (etaOf theta) (chipnOf theta) ((theta.chi1 - theta.chi2) * dOf theta) := ⟨_, rfl⟩
  obtain ⟨f2, hf2⟩ : ∃ f, f = spF2 (etaOf theta) (chipnOf theta) ((theta.chi1 - theta.chi2) * dOf theta) := ⟨_, rfl⟩
  have q0 : r0 + r1 * W0 + r2 * W0 ^ 2 = 8 * f0 * W0 ^ 2 := by
    have := hcol 0 W0 hW0 (by simpa using hW03)
    rw [sp_values, ← hf0] at this
    simp only [Matrix.cons_val_zero] at this
    rw [← this]
    have e9 : W0 ^ 2 * W0 ^ 7 = 0.5 ^ 3 := by rw [← hW03]; ring
    linear_combination (-8 * (r0 + r1 * W0 + r2 * W0 ^ 2)) * e9
  have q1 : r0 + r1 * W1 + r2 * W1 ^ 2 = 64 / 27 * f1 * W1 ^ 2 := by
    have := hcol 1 W1 hW1 (by simpa using hW13)
    rw [sp_values, ← hf1] at this
    simp only [Matrix.cons_val_one, Matrix.cons_val_zero] at this
    rw [← this]
    have e9 : W1 ^ 2 * W1 ^ 7 = 0.75 ^ 3 := by rw [← hW13]; ring
    linear_combination (-(64 / 27) * (r0 + r1 * W1 + r2 * W1 ^ 2)) * e9
  have q2 : r0 + r1 + r2 = f2 := by
    have := hcol 2 1 one_pos (by simp)
    rw [sp_values, ← hf2] at this
    simpa using this
  have cW0 := bW0
  have cW1 := bW1
  norm_num at cW0 cW1
  obtain ⟨n1, n2⟩ := newton_form (by linarith) (by linarith) (by linarith) q0 q1 q2
  rw [← n1] at n2
  -- the post-Newtonian part
  obtain ⟨b2, b3, b4, b5, b6⟩ := sp_PNcoeffs theta
  obtain ⟨A3, hA3⟩ : ∃ A, A = spA3 (etaOf theta) (dOf theta) theta.chi1 theta.chi2 := ⟨_, rfl⟩
  obtain ⟨A4, hA4⟩ : ∃ A, A = spA4 (etaOf theta) (dOf theta) theta.chi1 theta.chi2 := ⟨_, rfl⟩
  obtain ⟨A5, hA5⟩ : ∃ A, A = spA5 (etaOf theta) (dOf theta) theta.chi1 theta.chi2 π := ⟨_, rfl⟩
  obtain ⟨A6, hA6⟩ : ∃ A, A = spA6 (etaOf theta) (dOf theta) theta.chi1 theta.chi2 π := ⟨_, rfl⟩
  have e2 := pow_thirds Real.pi_pos hpeq 2
  have e4 := pow_thirds Real.pi_pos hpeq 4
  have e5 := pow_thirds Real.pi_pos hpeq 5
  push_cast at e2 e4 e5
  rw [e2] at b2
  rw [← hA3, ← hp3] at b3
  rw [← hA4, e4] at b4
  rw [← hA5, e5] at b5
  rw [← hA6, show π ^ 2 = p ^ 6 by rw [← hp3]; ring] at b6
  have hPN : ∀ w : ℝ, (inspiral_Amp_PN theta).A0 + (inspiral_Amp_PN theta).A2 * (c * w) ^ 2
      + (inspiral_Amp_PN theta).A3 * (c * w) ^ 3 + (inspiral_Amp_PN theta).A4 * (c * w) ^ 4
      + (inspiral_Amp_PN theta).A5 * (c * w) ^ 5 + (inspiral_Amp_PN theta).A6 * (c * w) ^ 6 =
      1 + (w * (p * c)) ^ 2 * ((-969 + 1804 * etaOf theta) / 672 + w * (p * c) * (A3 + w * (p * c) * (A4 + w * (p * c) *
        (A5 + w * (p * c) * A6)))) := by
    intro w
    rw [b2, b3, b4, b5, b6]
    change 1 + _ + _ + _ + _ + _ = _
    ring
  have hsl := ins_logslope theta PhenomX_amp_coeff_table hF1' hins
  obtain ⟨i1, hi1⟩ : ∃ i, i = get_inspiral_Amp (ampMatchIN theta) theta PhenomX_amp_coeff_table := ⟨_, rfl⟩
  obtain ⟨s1, hs1⟩ : ∃ s, s = 3 * (ampMatchIN theta * deriv (fun x => get_inspiral_Amp x theta PhenomX_amp_coeff_table)
    (ampMatchIN theta)) := ⟨_, rfl⟩
  have hi1' : i1 = 1 + (p * c) ^ 2 * ((-969 + 1804 * etaOf theta) / 672 + p * c * (A3 + p * c * (A4 + p * c *
        (A5 + p * c * A6)))) + f2 := by
    have := hins 1 one_pos
    rw [hPN 1] at this
    rw [hi1, ← q2]
    simpa using this
  have hs1' : s1 = (p * c) ^ 2 * (2 * ((-969 + 1804 * etaOf theta) / 672) + p * c * (3 * A3 + p * c * (4 * A4 + p * c *
        (5 * A5 + p * c * (6 * A6))))) + 7 * f2 + (r1 + r2 * (1 + W1)) + (1 - W1) * r2 := by
    rw [hs1, hsl, b2, b3, b4, b5, b6, ← q2]
    ring
  -- the ringdown frequency
  obtain ⟨R, hR⟩ : ∃ R, R = (0.07205 - 0.0146 * (1 - spinOf theta) + 0.0078 / (1 - spinOf theta + 0.1)) / (1 - eradOf theta) := ⟨_, rfl⟩
  have hRF : ampPeak theta PhenomX_amp_coeff_table ≤ R := by rw [hR]; exact hF4.le.trans (sp_fRD h hdd)
  have hE : eradOf theta = etaOf theta * eradG (etaOf theta) (stotOf theta) ((theta.chi1 - theta.chi2) * dOf theta)
      ((theta.chi1 - theta.chi2) ^ 2) := by unfold eradOf; rw [eRad_eq]
  have kF1 := root6_F1 hF1'.le hv0 hv3
  have kF4 := root6_F4 hF4'.le hRF
  have k1 : 0 < ampMatchIN theta ^ ((1 : ℝ) / 6) := Real.rpow_pos_of_pos hF1' _
  have k4 : 0 < ampPeak theta PhenomX_amp_coeff_table ^ ((1 : ℝ) / 6) := Real.rpow_pos_of_pos hF4' _
  have hpos : ∀ x, 0 < x → x ≤ ampMatchIN theta → 0 < get_inspiral_Amp x theta PhenomX_amp_coeff_table := by
    intro x hx' hxF
    obtain ⟨w, hw, hw3, -⟩ := cube_root (div_pos hx' hF1')
    have hxw : x = ampMatchIN theta * w ^ 3 := by rw [hw3, mul_div_cancel₀ _ hF1'.ne']
    have hw1 : w ≤ 1 := by
      by_contra hlt
      push Not at hlt
      have := one_lt_pow₀ hlt (n := 3) (by norm_num)
      rw [hw3, lt_div_iff₀ hF1'] at this
      linarith
    rw [hxw, hins w hw, hPN w]
    have key := sp_ins (dOf theta) theta.chi1 theta.chi2 δ w π W0 W1 (etaOf theta) (chipnOf theta) _ f0 f1 f2 A3 A4 A5 A6
      (r1 + r2 * (1 + W1)) r2 (w * (p * c)) hd hx hy he rfl rfl hδr ⟨hw.le, hw1⟩ hpi bW0 bW1 hf0 hf1 hf2 hA3 hA4 hA5 hA6 n1 n2 (by rw [hv])
    rw [← q2] at key
    refine lt_of_lt_of_eq key ?_
    ring
  have hi0 := hpos _ hF1' le_rfl
  rw [← hi1] at hi0
  have hslope := sp_slope (dOf theta) theta.chi1 theta.chi2 δ π W0 W1 (etaOf theta) (chipnOf theta) _ f0 f1 f2 A3 A4 A5 A6
      (r1 + r2 * (1 + W1)) r2 (p * c) i1 s1 hd hx hy he rfl rfl hδr hpi bW0 bW1 hf0 hf1 hf2 hA3 hA4 hA5 hA6 n1 n2 hv hi1' hs1'
  have hleft := sp_left (dOf theta) theta.chi1 theta.chi2 δ π W0 W1 (etaOf theta) (chipnOf theta) (stotOf theta) _ f0 f1 f2 A3 A4 A5 A6
      (r1 + r2 * (1 + W1)) r2 (p * c) i1 s1 _ (spinOf theta) _ (eradOf theta) R (ampMid theta) hd hx hy he rfl sp_stot rfl rfl
      (spinOf_eq h) rfl hδr hpi bW0 bW1 hf0 hf1 hf2 hA3 hA4 hA5 hA6 n1 n2 hv hi1' hs1' (sp_ampMid theta) hE hR
  have hm := sp_mid (dOf theta) theta.chi1 theta.chi2 (etaOf theta) (stotOf theta) _ hd hx hy he sp_stot rfl
  have hright := sp_right (dOf theta) theta.chi1 theta.chi2 (etaOf theta) (stotOf theta) _ _ (spinOf theta) _ (eradOf theta) R
    (ampMid theta) hd hx hy he sp_stot rfl rfl (spinOf_eq h) rfl (sp_ampMid theta) hE hR
  have hvp := sp_v (dOf theta) theta.chi1 theta.chi2 (etaOf theta) (stotOf theta) _ hd hx hy he sp_stot rfl
  rw [← sp_ampMid] at hm
  rw [← sp_v1RD] at hright hvp
  have hrd := sp_rd h hdd hvp
  have es : ampMatchIN theta * deriv (fun x => get_inspiral_Amp x theta PhenomX_amp_coeff_table) (ampMatchIN theta) = s1 / 3 := by
    rw [hs1]; ring
  rw [hv3, mul_div_cancel_left₀ _ Real.pi_pos.ne'] at hleft
  refine ⟨hpos, hm, hvp, hrd.1, hrd.2, ?_, ?_, ?_⟩
  · rw [es, ← hi1]
    norm_num at hslope
    linarith only [hslope]
  · rw [es, ← hi1]
    have eF : ampMatchIN theta * (s1 / 3 / ampMatchIN theta) = s1 / 3 := mul_div_cancel₀ _ hF1'.ne'
    have := left_of (F4 := ampPeak theta PhenomX_amp_coeff_table) (r := R) (j1 := s1 / 3 / ampMatchIN theta) k1.le kF1 hm.le hF1'.le
      (by linarith only [hRF, hF1']) (hF4'.le.trans hRF) hi0.le (by rw [eF]; norm_num at hslope; linarith only [hslope])
      (by rw [eF]; linarith only [hleft])
    rw [eF] at this
    exact this
  · rw [pow76 hF4']
    have e1 : ampPeak theta PhenomX_amp_coeff_table ^ ((1 : ℝ) / 6) * ampPeak theta PhenomX_amp_coeff_table ≤
        0.6695 * (1 + (R / 0.09 - 1) / 6) * R := mul_le_mul kF4 hRF hF4'.le (k4.le.trans kF4)
    have e2 := mul_le_mul_of_nonneg_right e1 hm.le
    linarith only [e2, hright]

end XAS
end Ripple

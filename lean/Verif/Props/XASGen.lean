/-
  Properties C35, C36 (XAS part), C65, C66, C67, C70: the IMRPhenomXAS strain generator.
  params = [Mc, eta, chi1, chi2, D, tc, phic] (and the inclination for the polarisations).
-/
import Verif.Proofs.XASGen
import Verif.Props.PhenomDGen

namespace Ripple
open PhenomD (scaleMass sc_Mc map_getElem)

/-- samplewise form of the XAS generator with the shipped coefficient tables -/
lemma genX_eq (grid : List ℝ) (Mc eta chi1 chi2 D tc phic : ℝ) (rest : List ℝ) (f_ref : ℝ) :
    XAS.gen_IMRPhenomXAS grid (Mc :: eta :: chi1 :: chi2 :: D :: tc :: phic :: rest) f_ref =
      grid.map (XAS.strainAt (thetaOf Mc eta chi1 chi2) XAS.PhenomX_phase_coeff_table XAS.PhenomX_amp_coeff_table
        D tc phic f_ref) := by
  have i0 : Jnp.index (Mc :: eta :: chi1 :: chi2 :: D :: tc :: phic :: rest) 0 = Mc :=
    Jnp.index_nat (i := 0) (by simp)
  have i1 : Jnp.index (Mc :: eta :: chi1 :: chi2 :: D :: tc :: phic :: rest) 1 = eta :=
    Jnp.index_nat (i := 1) (by simp)
  have i2 : Jnp.index (Mc :: eta :: chi1 :: chi2 :: D :: tc :: phic :: rest) 2 = chi1 :=
    Jnp.index_nat (i := 2) (by simp)
  have i3 : Jnp.index (Mc :: eta :: chi1 :: chi2 :: D :: tc :: phic :: rest) 3 = chi2 :=
    Jnp.index_nat (i := 3) (by simp)
  have i4 : Jnp.index (Mc :: eta :: chi1 :: chi2 :: D :: tc :: phic :: rest) 4 = D :=
    Jnp.index_nat (i := 4) (by simp)
  have i5 : Jnp.index (Mc :: eta :: chi1 :: chi2 :: D :: tc :: phic :: rest) 5 = tc :=
    Jnp.index_nat (i := 5) (by simp)
  have i6 : Jnp.index (Mc :: eta :: chi1 :: chi2 :: D :: tc :: phic :: rest) 6 = phic :=
    Jnp.index_nat (i := 6) (by simp)
  unfold XAS.gen_IMRPhenomXAS
  simp only [i0, i1, i2, i3, i4, i5, i6, XAS.gen_eq]
  rfl

section
variable (Mc eta chi1 chi2 D tc phic f_ref : ℝ)

/-! ### C35, C36 polarisations -/

theorem C35_XAS (grid : List ℝ) (iota : ℝ) :
    let h := XAS.gen_IMRPhenomXAS grid [Mc, eta, chi1, chi2, D, tc, phic] f_ref
    XAS.gen_IMRPhenomXAS_hphc grid [Mc, eta, chi1, chi2, D, tc, phic, iota] f_ref =
      (h.map fun z => (((1 + Real.cos iota ^ 2) / 2 : ℝ) : ℂ) * z,
       h.map fun z => -(Complex.I * z * (Real.cos iota : ℂ))) := by
  have i7 : Jnp.index [Mc, eta, chi1, chi2, D, tc, phic, iota] 7 = iota :=
    Jnp.index_nat (i := 7) (by simp)
  have hg : XAS.gen_IMRPhenomXAS grid [Mc, eta, chi1, chi2, D, tc, phic, iota] f_ref =
      XAS.gen_IMRPhenomXAS grid [Mc, eta, chi1, chi2, D, tc, phic] f_ref := by rw [genX_eq, genX_eq]
  intro h
  unfold XAS.gen_IMRPhenomXAS_hphc
  simp only [i7, hg]
  congr 1
  · refine List.map_congr_left fun z _ => ?_
    push_cast; ring
  · refine List.map_congr_left fun z _ => ?_
    ring

theorem C36_XAS (grid : List ℝ) :
    XAS.gen_IMRPhenomXAS_hphc grid [Mc, eta, chi1, chi2, D, tc, phic] f_ref =
      XAS.gen_IMRPhenomXAS_hphc grid [Mc, eta, chi1, chi2, D, tc, phic, phic] f_ref := by
  have i7 : Jnp.index [Mc, eta, chi1, chi2, D, tc, phic] 7 = phic := by
    simp [Jnp.index]
  have i7' : Jnp.index [Mc, eta, chi1, chi2, D, tc, phic, phic] 7 = phic :=
    Jnp.index_nat (i := 7) (by simp)
  unfold XAS.gen_IMRPhenomXAS_hphc
  simp only [i7, i7']
  rw [genX_eq, genX_eq]

/-! ### C65 cutoff and locality -/

/-- Every sample depends on its own frequency only: two grids (of any kind) agree wherever they contain the same
    frequency. -/
theorem C65_local (g1 g2 : List ℝ) (i j : ℕ) (hi : i < g1.length) (hj : j < g2.length)
    (hx : g1.getD i 0 = g2.getD j 0) :
    (XAS.gen_IMRPhenomXAS g1 [Mc, eta, chi1, chi2, D, tc, phic] f_ref).getD i 0 =
      (XAS.gen_IMRPhenomXAS g2 [Mc, eta, chi1, chi2, D, tc, phic] f_ref).getD j 0 := by
  rw [genX_eq, genX_eq, map_getElem hi, map_getElem hj, hx]

/-- The strain is exactly zero above `f M = 0.3` (M in seconds), provided the ringdown region starts below. -/
theorem C65_zero (hIN : XAS.ampMatchIN (thetaOf Mc eta chi1 chi2) ≤ 0.3)
    (hRD : XAS.ampPeak (thetaOf Mc eta chi1 chi2) XAS.PhenomX_amp_coeff_table ≤ 0.3)
    (grid : List ℝ) (j : ℕ) (hj : j < grid.length)
    (hx : 0.3 < grid.getD j 0 * (((thetaOf Mc eta chi1 chi2).m1 + (thetaOf Mc eta chi1 chi2).m2) * gt)) :
    (XAS.gen_IMRPhenomXAS grid [Mc, eta, chi1, chi2, D, tc, phic] f_ref).getD j 0 = 0 := by
  rw [genX_eq, map_getElem hj]
  rw [PhenomD.Ms_eq] at hx
  unfold XAS.strainAt
  rw [XAS.Amp_eq, Jnp.heaviside_neg (by linarith), Jnp.heaviside_neg (x := XAS.ampPeak _ _ - _) (by linarith),
    Jnp.heaviside_neg (x := 0.3 - _) (by linarith)]
  simp

/-- In the ringdown region below `f M = 0.3` no sample is zero (and at exactly `f M = 0.3` it is half of the ringdown
    amplitude, hence not zero either). -/
theorem C65_nonzero (hMc : 0 < Mc) (he : 0 < eta) (he' : eta ≤ 1 / 4) (hD : 0 < D)
    (hIN : XAS.ampMatchIN (thetaOf Mc eta chi1 chi2) ≤ XAS.ampPeak (thetaOf Mc eta chi1 chi2) XAS.PhenomX_amp_coeff_table)
    (hd : (XAS.get_cutoff_fMs (thetaOf Mc eta chi1 chi2).m1 (thetaOf Mc eta chi1 chi2).m2 chi1 chi2).fdamp ≠ 0)
    (hg3 : (XAS.ringdown_Amp_fits (thetaOf Mc eta chi1 chi2) XAS.PhenomX_amp_coeff_table).2.1 ≠ 0)
    (hv : (XAS.ringdown_Amp_fits (thetaOf Mc eta chi1 chi2) XAS.PhenomX_amp_coeff_table).2.2 ≠ 0)
    (grid : List ℝ) (j : ℕ) (hj : j < grid.length) (hx0 : 0 < grid.getD j 0)
    (hx1 : XAS.ampPeak (thetaOf Mc eta chi1 chi2) XAS.PhenomX_amp_coeff_table <
      grid.getD j 0 * (((thetaOf Mc eta chi1 chi2).m1 + (thetaOf Mc eta chi1 chi2).m2) * gt))
    (hx2 : grid.getD j 0 * (((thetaOf Mc eta chi1 chi2).m1 + (thetaOf Mc eta chi1 chi2).m2) * gt) ≤ 0.3) :
    (XAS.gen_IMRPhenomXAS grid [Mc, eta, chi1, chi2, D, tc, phic] f_ref).getD j 0 ≠ 0 := by
  have hm := C02_masses_ordered Mc eta hMc he he'
  rw [genX_eq, map_getElem hj]
  rw [PhenomD.Ms_eq] at hx1 hx2
  set theta := thetaOf Mc eta chi1 chi2 with hth
  have hm1 : 0 < theta.m1 := lt_of_lt_of_le hm.1 hm.2.1
  have hm2 : 0 < theta.m2 := hm.1
  have hMs : 0 < PhenomD.Ms theta := by have := gt_pos; unfold PhenomD.Ms; positivity
  have hxM : 0 < grid.getD j 0 * PhenomD.Ms theta := mul_pos hx0 hMs
  unfold XAS.strainAt
  refine mul_ne_zero ?_ (Complex.exp_ne_zero _)
  rw [XAS.Amp_eq, Jnp.heaviside_neg (by linarith), Jnp.heaviside_neg (x := XAS.ampPeak _ _ - _) (by linarith),
    Jnp.heaviside_pos (x := _ - XAS.ampPeak _ _) (by linarith)]
  have hu : XAS.ampUnit theta D ≠ 0 := by
    have h5 : 0 < Real.sqrt (5 / (64 * PI)) := by have := PI_pos; positivity
    have h6 : 0 < PI ^ (-((1 : ℝ) / 6)) := Real.rpow_pos_of_pos PI_pos _
    have := gt_pos
    have := m_per_Mpc_pos
    have := C_pos
    have h7 : 0 < Real.sqrt (2 * (theta.m1 * gt * (theta.m2 * gt) / PhenomD.Ms theta ^ 2) / 3) := by positivity
    unfold XAS.ampUnit
    positivity
  have hp : (grid.getD j 0 * PhenomD.Ms theta) ^ (-((7 : ℝ) / 6)) ≠ 0 := (Real.rpow_pos_of_pos hxM _).ne'
  have hh : Jnp.heaviside (0.3 - grid.getD j 0 * PhenomD.Ms theta) 0.5 ≠ 0 := by
    rcases hx2.lt_or_eq with h | h
    · rw [Jnp.heaviside_pos (by linarith)]; norm_num
    · rw [h, sub_self, Jnp.heaviside_zero]; norm_num
  have hr : (XAS.get_mergerringdown_Amp (grid.getD j 0 * PhenomD.Ms theta) theta XAS.PhenomX_amp_coeff_table).1 ≠ 0 := by
    unfold XAS.get_mergerringdown_Amp
    simp only []
    have e : ∀ a b : ℝ, a * a - 2 * a * b + b * b = (a - b) ^ 2 := fun a b => by ring
    change (XAS.get_cutoff_fMs theta.m1 theta.m2 theta.chi1 theta.chi2).fdamp ≠ 0 at hd
    generalize (XAS.get_cutoff_fMs theta.m1 theta.m2 theta.chi1 theta.chi2).fdamp = fd at *
    generalize (XAS.ringdown_Amp_fits theta XAS.PhenomX_amp_coeff_table).2.1 = g3 at *
    have hw : 0 < (g3 * fd) ^ 2 := by positivity
    refine div_ne_zero (mul_ne_zero (Real.exp_ne_zero _) (mul_ne_zero (mul_ne_zero hd (mul_ne_zero (mul_ne_zero
      (div_ne_zero hv (mul_ne_zero hd hg3)) ?_) (Real.exp_ne_zero _))) hg3)) ?_
    · rw [e]; nlinarith [sq_nonneg (XAS.ampRDMin (XAS.get_cutoff_fMs theta.m1 theta.m2 theta.chi1 theta.chi2).fRD fd
        (XAS.ringdown_Amp_fits theta XAS.PhenomX_amp_coeff_table).1 g3 - (XAS.get_cutoff_fMs theta.m1 theta.m2 theta.chi1 theta.chi2).fRD)]
    · nlinarith [sq_nonneg (grid.getD j 0 * PhenomD.Ms theta - (XAS.get_cutoff_fMs theta.m1 theta.m2 theta.chi1 theta.chi2).fRD)]
  have := mul_ne_zero (mul_ne_zero hu (mul_ne_zero hr hh)) hp
  simpa using this

/-! ### C66 distance, time and phase -/

theorem C66_distance (grid : List ℝ) (k : ℝ) (_hk : 0 < k) :
    XAS.gen_IMRPhenomXAS grid [Mc, eta, chi1, chi2, k * D, tc, phic] f_ref =
      (XAS.gen_IMRPhenomXAS grid [Mc, eta, chi1, chi2, D, tc, phic] f_ref).map fun h => h / (k : ℂ) := by
  rw [genX_eq, genX_eq, List.map_map]
  refine List.map_congr_left fun x _ => ?_
  simp only [Function.comp, XAS.strainAt, XAS.Amp_dist]
  push_cast
  ring

/-- A time shift multiplies each sample by exp(+2πi f dt), a phase shift by exp(-i dphi): for every grid. -/
theorem C66_time_phase (grid : List ℝ) (dt dphi : ℝ) (j : ℕ) (hj : j < grid.length) :
    (XAS.gen_IMRPhenomXAS grid [Mc, eta, chi1, chi2, D, tc + dt, phic + dphi] f_ref).getD j 0 =
      (XAS.gen_IMRPhenomXAS grid [Mc, eta, chi1, chi2, D, tc, phic] f_ref).getD j 0 *
        Complex.exp (2 * Real.pi * Complex.I * (grid.getD j 0 : ℝ) * dt) * Complex.exp (-(Complex.I * dphi)) := by
  rw [genX_eq, genX_eq, map_getElem hj, map_getElem hj]
  unfold XAS.strainAt
  rw [mul_assoc, mul_assoc, ← Complex.exp_add, ← Complex.exp_add]
  congr 2
  unfold XAS.psiAt
  simp only [PI]
  push_cast
  ring

/-- Side by side with PhenomD (grid below the PhenomD cutoff): the same shift of (tc, phic) acts with the complex
    conjugate time factor and, squared, the inverse phase factor. -/
theorem C66_opposite_to_D (q : QNM) (grid : List ℝ) (hne : grid ≠ [])
    (hl : ∀ x ∈ grid, x < fCut (thetaOf Mc eta chi1 chi2)) (dt dphi : ℝ) (j : ℕ) (hj : j < grid.length) :
    ∃ T P : ℂ, T = Complex.exp (2 * Real.pi * Complex.I * (grid.getD j 0 : ℝ) * dt) ∧ P = Complex.exp (Complex.I * dphi) ∧
      (XAS.gen_IMRPhenomXAS grid [Mc, eta, chi1, chi2, D, tc + dt, phic + dphi] f_ref).getD j 0 =
        (XAS.gen_IMRPhenomXAS grid [Mc, eta, chi1, chi2, D, tc, phic] f_ref).getD j 0 * T * P⁻¹ ∧
      (PhenomD.gen_IMRPhenomD q grid [Mc, eta, chi1, chi2, D, tc + dt, phic + dphi] f_ref).getD j 0 =
        (PhenomD.gen_IMRPhenomD q grid [Mc, eta, chi1, chi2, D, tc, phic] f_ref).getD j 0 * T⁻¹ * P ^ 2 := by
  refine ⟨_, _, rfl, rfl, ?_, ?_⟩
  · rw [C66_time_phase _ _ _ _ _ _ _ _ grid dt dphi j hj, ← Complex.exp_neg]
  · rw [C31_time_phase q _ _ _ _ _ _ _ _ grid hne hl dt dphi j hj, ← Complex.exp_neg, ← Complex.exp_nat_mul]
    congr 2
    · congr 2; ring
    · push_cast; ring

/-- The modulus depends neither on tc, phic nor f_ref. -/
theorem C66_modulus (grid : List ℝ) (tc' phic' f_ref' : ℝ) (j : ℕ) (hj : j < grid.length) :
    ‖(XAS.gen_IMRPhenomXAS grid [Mc, eta, chi1, chi2, D, tc', phic'] f_ref').getD j 0‖ =
      ‖(XAS.gen_IMRPhenomXAS grid [Mc, eta, chi1, chi2, D, tc, phic] f_ref).getD j 0‖ := by
  rw [genX_eq, genX_eq, map_getElem hj, map_getElem hj]
  unfold XAS.strainAt
  rw [norm_mul, norm_mul, mul_comm Complex.I, mul_comm Complex.I, Complex.norm_exp_ofReal_mul_I,
    Complex.norm_exp_ofReal_mul_I]

/-! ### C67 reference phase -/

/-- With tc = phic = 0 the sample at f = f_ref is a real amplitude (the modulus, up to sign, of the same sample for
    every other f_ref) times exp(-3πi/4). -/
theorem C67_reference_phase (grid : List ℝ) (j : ℕ) (hj : j < grid.length) (hf : grid.getD j 0 = f_ref) :
    ∃ a : ℝ, (XAS.gen_IMRPhenomXAS grid [Mc, eta, chi1, chi2, D, 0, 0] f_ref).getD j 0 =
        (a : ℂ) * Complex.exp (-(3 * Real.pi / 4 * Complex.I)) ∧
      ∀ f_ref' : ℝ, ‖(XAS.gen_IMRPhenomXAS grid [Mc, eta, chi1, chi2, D, 0, 0] f_ref').getD j 0‖ = |a| := by
  refine ⟨XAS.Amp f_ref (thetaOf Mc eta chi1 chi2) XAS.PhenomX_amp_coeff_table D, ?_, fun f' => ?_⟩
  · rw [genX_eq, map_getElem hj, hf]
    unfold XAS.strainAt
    congr 2
    unfold XAS.psiAt
    simp only [PI]
    push_cast
    ring
  · rw [genX_eq, map_getElem hj, hf]
    unfold XAS.strainAt
    rw [norm_mul, mul_comm Complex.I, Complex.norm_exp_ofReal_mul_I]
    simp

/-! ### C70 total mass scaling -/

theorem C70_scaling (grid : List ℝ) (k : ℝ) (hk : 0 < k) :
    XAS.gen_IMRPhenomXAS (grid.map fun x => x / k) [k * Mc, eta, chi1, chi2, D, k * tc, phic] (f_ref / k) =
      (XAS.gen_IMRPhenomXAS grid [Mc, eta, chi1, chi2, D, tc, phic] f_ref).map fun h => (k : ℂ) ^ 2 * h := by
  have ht : thetaOf (k * Mc) eta chi1 chi2 = scaleMass k (thetaOf Mc eta chi1 chi2) := by
    unfold thetaOf scaleMass; rw [sc_Mc hk]
  rw [genX_eq, genX_eq, List.map_map, List.map_map, ht]
  refine List.map_congr_left fun x _ => ?_
  simp only [Function.comp]
  exact XAS.sc_strain hk _ _ _ _ _ _ _ _

/-- witness: a grid with a repeated frequency and an f_ref on the grid -/
example : ∃ (grid : List ℝ) (j : ℕ), j < grid.length ∧ grid.getD j 0 = 50 ∧ (2 : ℝ) > 0 :=
  ⟨[20, 50, 100], 1, by simp, by simp, by norm_num⟩

end
end Ripple

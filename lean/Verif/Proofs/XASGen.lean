/-
  Helper lemmas about the IMRPhenomXAS generator: samplewise form and total-mass scaling.
-/
import Verif.Model.PhenomXAS
import Verif.Proofs.PhenomDScale
import Verif.Proofs.Glue
import Mathlib.Analysis.Calculus.Deriv.Mul
import Mathlib.Analysis.Calculus.Deriv.Comp

namespace Ripple
namespace XAS
set_option linter.unusedSectionVars false
open PhenomD (Ms scaleMass sc_eta sc_Ms)

/-- the phase of one sample -/
noncomputable def psiAt (theta : Theta) (P : Table) (tc phic f_ref x : ℝ) : ℝ :=
  Phase x theta P + phase_slope theta P * (x * Ms theta) -
    (Phase f_ref theta P + phase_slope theta P * (f_ref * Ms theta)) + PI / 4 + PI - 2 * PI + (2 * PI * x * tc - phic)

/-- one sample of the strain -/
noncomputable def strainAt (theta : Theta) (P A : Table) (D tc phic f_ref x : ℝ) : ℂ :=
  (Amp x theta A D : ℂ) * Complex.exp (Complex.I * (psiAt theta P tc phic f_ref x : ℝ))

lemma gen_eq (grid : List ℝ) (theta : Theta) (D tc phic : ℝ) (P A : Table) (f_ref : ℝ) :
    _gen_IMRPhenomXAS grid theta D tc phic P A f_ref = grid.map (strainAt theta P A D tc phic f_ref) := by
  unfold _gen_IMRPhenomXAS
  refine List.map_congr_left fun x _ => ?_
  unfold strainAt psiAt Ms
  simp only []
  congr 4
  ring

section
variable {k : ℝ} (hk : 0 < k)
include hk

lemma sc_cutoff (m1 m2 c1 c2 : ℝ) : get_cutoff_fMs (k * m1) (k * m2) c1 c2 = get_cutoff_fMs m1 m2 c1 c2 := by
  unfold get_cutoff_fMs
  simp only [sc_eta hk]

lemma sc_ins_phase (x : ℝ) (theta : Theta) (P : Table) :
    get_inspiral_phase x (scaleMass k theta) P = get_inspiral_phase x theta P := by
  unfold get_inspiral_phase inspiral_phase_coeffs inspiral_phase_PN inspiral_phase_nodes inspiral_phase_values
  simp only [scaleMass, sc_eta hk, sc_cutoff hk]

lemma sc_int_phase (x : ℝ) (theta : Theta) (P : Table) (a b c : ℝ) :
    get_intermediate_raw_phase x (scaleMass k theta) P a b c = get_intermediate_raw_phase x theta P a b c := by
  unfold get_intermediate_raw_phase intermediate_phase_coeffs intermediate_phase_nodes intermediate_phase_values
  simp only [scaleMass, sc_eta hk, sc_cutoff hk]

lemma sc_rd_phase (x : ℝ) (theta : Theta) (P : Table) :
    get_mergerringdown_raw_phase x (scaleMass k theta) P = get_mergerringdown_raw_phase x theta P := by
  unfold get_mergerringdown_raw_phase ringdown_phase_coeffs ringdown_phase_nodes ringdown_phase_values
  simp only [scaleMass, sc_eta hk, sc_cutoff hk]

lemma sc_freq (x m1 m2 : ℝ) : x * (k * m1 * gt + k * m2 * gt) = k * x * (m1 * gt + m2 * gt) := by ring

lemma sc_Phase (x : ℝ) (theta : Theta) (P : Table) :
    Phase x (scaleMass k theta) P = Phase (k * x) theta P := by
  unfold Phase
  simp only [sc_ins_phase hk, sc_int_phase hk, sc_rd_phase hk]
  simp only [scaleMass, sc_eta hk, sc_cutoff hk, sc_freq hk]

lemma sc_slope (theta : Theta) (P : Table) : phase_slope (scaleMass k theta) P = phase_slope theta P := by
  unfold phase_slope
  simp only [sc_Phase hk]
  simp only [scaleMass, sc_eta hk, sc_cutoff hk]
  have hM : k * theta.m1 * gt + k * theta.m2 * gt = k * (theta.m1 * gt + theta.m2 * gt) := by ring
  rw [hM]
  generalize theta.m1 * gt + theta.m2 * gt = M
  have hd : ∀ (g : ℝ → ℝ) (c : ℝ), deriv (fun f => g (k * f)) (c / (k * M)) / (k * M) = deriv g (c / M) / M := by
    intro g c
    rw [deriv_comp_mul_left, smul_eq_mul]
    have : k * (c / (k * M)) = c / M := by field_simp
    rw [this]
    field_simp
  rw [hd (fun y => Phase y theta P)]

lemma sc_ins_Amp (x : ℝ) (theta : Theta) (A : Table) :
    get_inspiral_Amp x (scaleMass k theta) A = get_inspiral_Amp x theta A := by
  unfold get_inspiral_Amp inspiral_Amp_PN inspiral_Amp_nodes inspiral_Amp_values ampMatchIN
  simp only [scaleMass, sc_eta hk, sc_cutoff hk]

lemma sc_rd_Amp (x : ℝ) (theta : Theta) (A : Table) :
    get_mergerringdown_Amp x (scaleMass k theta) A = get_mergerringdown_Amp x theta A := by
  unfold get_mergerringdown_Amp ringdown_Amp_fits
  simp only [scaleMass, sc_eta hk, sc_cutoff hk]

lemma sc_matchIN (theta : Theta) : ampMatchIN (scaleMass k theta) = ampMatchIN theta := by
  unfold ampMatchIN
  simp only [scaleMass, sc_cutoff hk]

lemma sc_int_Amp (x : ℝ) (theta : Theta) (A : Table) (r : ℝ) :
    get_intermediate_Amp x (scaleMass k theta) A r = get_intermediate_Amp x theta A r := by
  unfold get_intermediate_Amp intermediate_Amp_coeffs
  simp only [sc_ins_Amp hk, sc_rd_Amp hk, sc_matchIN hk]
  simp only [scaleMass, sc_eta hk]

lemma sc_Amp (x : ℝ) (theta : Theta) (A : Table) (D : ℝ) :
    Amp x (scaleMass k theta) A D = k ^ 2 * Amp (k * x) theta A D := by
  unfold Amp
  simp only [sc_ins_Amp hk, sc_rd_Amp hk, sc_matchIN hk, sc_int_Amp hk]
  simp only [scaleMass, sc_eta hk, sc_freq hk]
  ring

lemma sc_strain (theta : Theta) (P A : Table) (D tc phic f_ref x : ℝ) :
    strainAt (scaleMass k theta) P A D (k * tc) phic (f_ref / k) (x / k) =
      (k : ℂ) ^ 2 * strainAt theta P A D tc phic f_ref x := by
  have e : ∀ y : ℝ, k * (y / k) = y := fun y => by field_simp
  have hpsi : psiAt (scaleMass k theta) P (k * tc) phic (f_ref / k) (x / k) = psiAt theta P tc phic f_ref x := by
    unfold psiAt
    rw [sc_Phase hk, sc_Phase hk, sc_slope hk, sc_Ms hk, e, e]
    have h1 : ∀ y : ℝ, y / k * (k * Ms theta) = y * Ms theta := fun y => by field_simp
    have h2 : 2 * PI * (x / k) * (k * tc) = 2 * PI * x * tc := by field_simp
    rw [h1, h1, h2]
  unfold strainAt
  rw [hpsi, sc_Amp hk, e]
  push_cast
  ring

end

lemma Amp_dist (x : ℝ) (theta : Theta) (A : Table) (k D : ℝ) : Amp x theta A (k * D) = Amp x theta A D / k := by
  unfold Amp
  simp only []
  have e : k * D * m_per_Mpc / C = D * m_per_Mpc / C * k := by ring
  rw [e, div_mul_eq_div_div]
  ring

/-! ### amplitude region by region -/

/-- normalisation of the amplitude -/
noncomputable def ampUnit (theta : Theta) (D : ℝ) : ℝ :=
  2 * Real.sqrt (5 / (64 * PI)) * Ms theta ^ 2 / (D * m_per_Mpc / C) *
    (Real.sqrt (2 * (theta.m1 * gt * (theta.m2 * gt) / Ms theta ^ 2) / 3) * PI ^ (-((1 : ℝ) / 6)))

/-- the end of the intermediate amplitude region -/
noncomputable def ampPeak (theta : Theta) (A : Table) : ℝ :=
  ampRDMin (get_cutoff_fMs theta.m1 theta.m2 theta.chi1 theta.chi2).fRD
    (get_cutoff_fMs theta.m1 theta.m2 theta.chi1 theta.chi2).fdamp (ringdown_Amp_fits theta A).1 (ringdown_Amp_fits theta A).2.1

lemma Amp_eq (x : ℝ) (theta : Theta) (A : Table) (D : ℝ) :
    Amp x theta A D = ampUnit theta D *
      (get_inspiral_Amp (x * Ms theta) theta A * Jnp.heaviside (ampMatchIN theta - x * Ms theta) 0.5
      + Jnp.heaviside (x * Ms theta - ampMatchIN theta) 0.5 *
        get_intermediate_Amp (x * Ms theta) theta A (ampPeak theta A) * Jnp.heaviside (ampPeak theta A - x * Ms theta) 0.5
      + (get_mergerringdown_Amp (x * Ms theta) theta A).1 * Jnp.heaviside (x * Ms theta - ampPeak theta A) 0.5
        * Jnp.heaviside (0.3 - x * Ms theta) 0.5) * (x * Ms theta) ^ (-((7 : ℝ) / 6)) := rfl

end XAS
end Ripple

/-
  Properties C91 and C92: the remnant and the characteristic frequencies of IMRPhenomXAS for every physical binary, and the
  unconditional forms of C62, C64, C65 and C68 they give.
-/
import Verif.Proofs.XASPhys
import Verif.Props.XASPhase
import Verif.Props.XASAmp
import Verif.Props.XASGen
import Verif.Props.XASPN
import Verif.Props.Isco
import Verif.Props.PhenomDPhys

namespace Ripple
open Set XAS

namespace Spec

/-- symmetric mass ratio and mass fractions (heavier first), from the definition -/
noncomputable def nu (m1 m2 : ℝ) : ℝ := m1 * m2 / (m1 + m2) ^ 2
noncomputable def muH (m1 m2 : ℝ) : ℝ := max m1 m2 / (m1 + m2)
noncomputable def muL (m1 m2 : ℝ) : ℝ := min m1 m2 / (m1 + m2)

/-- total spin of the binary over the sum of the squared masses, `chi1` being the spin of the heavier body -/
noncomputable def shat (m1 m2 chi1 chi2 : ℝ) : ℝ :=
  (muH m1 m2 ^ 2 * chi1 + muL m1 m2 ^ 2 * chi2) / (muH m1 m2 ^ 2 + muL m1 m2 ^ 2)

end Spec

namespace XAS

lemma etaOf_spec (theta : Theta) : etaOf theta = Spec.nu theta.m1 theta.m2 := by
  have hg := gt_pos.ne'
  unfold etaOf Spec.nu
  rw [show theta.m1 * gt + theta.m2 * gt = (theta.m1 + theta.m2) * gt by ring, mul_pow,
    show theta.m1 * gt * (theta.m2 * gt) = theta.m1 * theta.m2 * gt ^ 2 by ring, mul_div_mul_right _ _ (pow_ne_zero 2 hg)]

lemma dOf_spec {theta : Theta} (h : theta.Physical) :
    0.5 * (1 + dOf theta) = Spec.muH theta.m1 theta.m2 ∧ 0.5 * (1 - dOf theta) = Spec.muL theta.m1 theta.m2 ∧
    dOf theta = Spec.muH theta.m1 theta.m2 - Spec.muL theta.m1 theta.m2 := by
  have h1 := h.m1_pos
  have h2 := h.m2_pos
  have hM : 0 < theta.m1 + theta.m2 := by linarith
  have hd : dOf theta = (max theta.m1 theta.m2 - min theta.m1 theta.m2) / (theta.m1 + theta.m2) := by
    unfold dOf
    rw [etaOf_spec, show 1 - 4 * Spec.nu theta.m1 theta.m2 =
      ((max theta.m1 theta.m2 - min theta.m1 theta.m2) / (theta.m1 + theta.m2)) ^ 2 by
        rw [max_sub_min_eq_abs, div_pow, sq_abs]
        unfold Spec.nu
        field_simp
        ring,
      Real.sqrt_sq (div_nonneg (by linarith [min_le_max (a := theta.m1) (b := theta.m2)]) hM.le)]
  have hs := max_add_min theta.m1 theta.m2
  refine ⟨?_, ?_, ?_⟩
  · rw [hd]; unfold Spec.muH
    rw [eq_div_iff hM.ne', mul_assoc, add_mul, div_mul_cancel₀ _ hM.ne']
    linarith
  · rw [hd]; unfold Spec.muL
    rw [eq_div_iff hM.ne', mul_assoc, sub_mul, div_mul_cancel₀ _ hM.ne']
    linarith
  · rw [hd]; unfold Spec.muH Spec.muL
    ring

end XAS

/-! ### C91 remnant -/

/-- For every binary with positive masses and spin magnitudes at most one, the remnant has a spin strictly between -1 and 1
    and has lost more than nothing and less than 12 % of the mass: `a` and `E` are the two fits evaluated at the
    symmetric mass ratio, the mass fractions and the total spin of the binary.  The ISCO frequency is that of the Kerr
    hole of spin `a`; the ringdown frequency, in units of the remnant mass `1 - E`, lies between 0.045 and 0.16 and the
    damping frequency between 0.0015 and 0.0145. -/
theorem C91_remnant (m1 m2 chi1 chi2 : ℝ) (h1 : 0 < m1) (h2 : 0 < m2) (hc1 : |chi1| ≤ 1) (hc2 : |chi2| ≤ 1) :
    let a := finalSpin (Spec.nu m1 m2) (Spec.muH m1 m2 - Spec.muL m1 m2) (Spec.muH m1 m2) (Spec.muL m1 m2)
      (Spec.shat m1 m2 chi1 chi2) (chi1 - chi2)
    let E := eRad (Spec.nu m1 m2) (Spec.muH m1 m2 - Spec.muL m1 m2) (Spec.shat m1 m2 chi1 chi2) (chi1 - chi2)
    let c := get_cutoff_fMs m1 m2 chi1 chi2
    (-1 < a ∧ a < 1) ∧ (0 < E ∧ E < 0.12) ∧
    (∃ r, Spec.MarginallyStable a r ∧ 0 < r ^ ((3 : ℝ) / 2) + a ∧ c.fISCO = 1 / (Real.pi * (r ^ ((3 : ℝ) / 2) + a))) ∧
    (0.045 < c.fRD * (1 - E) ∧ c.fRD * (1 - E) < 0.16) ∧
    (0.0015 < c.fdamp * (1 - E) ∧ c.fdamp * (1 - E) < 0.0145) := by
  have h : (⟨m1, m2, chi1, chi2⟩ : Theta).Physical := ⟨h1, h2, hc1, hc2⟩
  set theta : Theta := ⟨m1, m2, chi1, chi2⟩ with hth
  obtain ⟨e1, e2, e3⟩ := dOf_spec h
  have e4 := etaOf_spec theta
  intro a E c
  have hSt : stotOf theta = Spec.shat m1 m2 chi1 chi2 := by
    unfold stotOf Spec.shat
    rw [e1, e2]
  have ha : a = spinOf theta := by
    unfold spinOf
    rw [e1, e2, e4, hSt, e3]
  have hE : E = eradOf theta := by
    unfold eradOf
    rw [e4, hSt, e3]
  have hc : c = ⟨fRDof a E, fdampOf a E, fMECOof (etaOf theta) (dOf theta) (chipnOf theta) (theta.chi1 - theta.chi2),
      fISCOof a⟩ := by rw [ha, hE]; exact cutoffs_eq theta
  have b1 : -1 < a := ha ▸ spin_gt h
  have b2 : a < 1 := ha ▸ spin_lt h
  have b3 : 0 < E ∧ E < 0.12 := hE ▸ erad_range h
  have ht : 0 ≤ 1 - a ∧ 1 - a ≤ 2 := by constructor <;> linarith
  have hE0 : 1 - E ≠ 0 := by linarith [b3.2]
  refine ⟨⟨b1, b2⟩, b3, ⟨rISCOof a, C71_kerr a b1.le b2.le, (C71_frequency a b1.le b2.le).1, ?_⟩, ?_, ?_⟩
  · rw [hc]; exact (C71_frequency a b1.le b2.le).2
  · rw [hc]
    change 0.045 < fRDof a E * (1 - E) ∧ fRDof a E * (1 - E) < 0.16
    rw [fRDof_eq, div_mul_cancel₀ _ hE0, lt_div_iff₀ (rD_pos _ ht), div_lt_iff₀ (rD_pos _ ht)]
    constructor <;> linarith [gR_lo _ ht, gR_hi _ ht]
  · rw [hc]
    change 0.0015 < fdampOf a E * (1 - E) ∧ fdampOf a E * (1 - E) < 0.0145
    rw [fdampOf_eq, div_mul_cancel₀ _ hE0, lt_div_iff₀ (dD_pos _ ht), div_lt_iff₀ (dD_pos _ ht)]
    constructor <;> linarith [gD_lo _ ht, gD_hi _ ht]

/-- witness: a nearly extremal binary of mass ratio 20 -/
example : (0 : ℝ) < 20 ∧ (0 : ℝ) < 1 ∧ |(0.998 : ℝ)| ≤ 1 ∧ |(-0.998 : ℝ)| ≤ 1 := by norm_num [abs_le]

/-! ### C92 order of the frequency regions -/

/-- For every physical binary the regions used by IMRPhenomXAS are in the right order and below the cutoff: for the phase,
    0.0026 < 0.0098 < end of the inspiral < start of the ringdown < 0.3; the collocation frequencies of the ringdown fit
    increase; for the amplitude, 0.01 < end of the inspiral < start of the ringdown < fRD < 0.3; the ringdown Lorentzian has a
    positive width and a positive decay rate. -/
theorem C92_regions_ordered (theta : Theta) (h : theta.Physical) :
    (0.01 < (cut theta).fMECO ∧ (cut theta).fMECO < fIM theta) ∧
    (0.005 < fPhase1 theta ∧ fPhase1 theta < fPhase2 theta ∧ fPhase2 theta < 0.3) ∧
    StrictMono (ringdown_phase_nodes theta) ∧
    (0.0075 < ampMatchIN theta ∧ ampMatchIN theta < ampPeak theta PhenomX_amp_coeff_table ∧
      ampPeak theta PhenomX_amp_coeff_table < (cut theta).fRD ∧ (cut theta).fRD < 0.3) ∧
    (0 < (cut theta).fdamp ∧ 0 < (ringdown_Amp_fits theta PhenomX_amp_coeff_table).1 ∧
      0 < (ringdown_Amp_fits theta PhenomX_amp_coeff_table).2.1) := by
  have a1 := spin_gt h
  have a2 := spin_lt h
  have hm := meco_lo h
  have him := meco_lt_im h
  have hi := isco_pos a1.le a2.le
  have hR := fRD_range h
  have hd := fdamp_range h
  have hg2 := gamma2_lo h
  have hg3 := gamma3_range h
  have ho := amp_order h
  have hord := ringdown_order h
  have hc : cut theta = ⟨fRDof (spinOf theta) (eradOf theta), fdampOf (spinOf theta) (eradOf theta),
      fMECOof (etaOf theta) (dOf theta) (chipnOf theta) (theta.chi1 - theta.chi2), fISCOof (spinOf theta)⟩ := cutoffs_eq theta
  have hIM : fIM theta = 0.6 * (fRDof (spinOf theta) (eradOf theta) / 2 + fISCOof (spinOf theta)) := by
    unfold fIM; rw [hc]
  have hpk : ampPeak theta PhenomX_amp_coeff_table = ampRDMin (fRDof (spinOf theta) (eradOf theta))
      (fdampOf (spinOf theta) (eradOf theta)) (ringdown_Amp_fits theta PhenomX_amp_coeff_table).1
      (ringdown_Amp_fits theta PhenomX_amp_coeff_table).2.1 := rfl
  have hIN : ampMatchIN theta = 0.75 * fMECOof (etaOf theta) (dOf theta) (chipnOf theta) (theta.chi1 - theta.chi2) +
      0.25 * fISCOof (spinOf theta) := by
    change fMECOof (etaOf theta) (dOf theta) (chipnOf theta) (theta.chi1 - theta.chi2) + 0.25 * (fISCOof (spinOf theta) -
      fMECOof (etaOf theta) (dOf theta) (chipnOf theta) (theta.chi1 - theta.chi2)) = _
    ring
  have hnodes : ringdown_phase_nodes theta = ![fIM theta, (1 / 2 - 1 / (2 * Real.sqrt 2)) *
      ((cut theta).fRD + 1.25 * (cut theta).fdamp - fIM theta) + fIM theta,
      1 / 2 * ((cut theta).fRD + 1.25 * (cut theta).fdamp - fIM theta) + fIM theta, (cut theta).fRD,
      (cut theta).fRD + 1.25 * (cut theta).fdamp] := by
    unfold ringdown_phase_nodes fIM cut
    simp only []
    congr 1
    · simp; left; ring
    · congr 1
      · simp; ring
      · congr 1
        · simp; ring
        · congr 1
          congr 1
          simp
  unfold fPhase1 fPhase2
  rw [hnodes]
  rw [hIM, hpk, hIN, hc]
  simp only []
  generalize fRDof (spinOf theta) (eradOf theta) = R at *
  generalize fdampOf (spinOf theta) (eradOf theta) = w at *
  generalize fMECOof (etaOf theta) (dOf theta) (chipnOf theta) (theta.chi1 - theta.chi2) = X at *
  generalize fISCOof (spinOf theta) = I at *
  generalize (ringdown_Amp_fits theta PhenomX_amp_coeff_table).1 = g2 at *
  generalize (ringdown_Amp_fits theta PhenomX_amp_coeff_table).2.1 = g3 at *
  norm_num at hR hd hm hi ho hg2 hg3 him hord ⊢
  obtain ⟨p1, p2⟩ := ampRDMin_range (r := R) (w := w) (g := g2) (k := g3) (by linarith) (by linarith) (by linarith) (by nlinarith)
  have hwg : w * g3 ≤ 7 / 5 * w := by nlinarith
  refine ⟨⟨by linarith, by linarith⟩, ⟨by linarith, by linarith, by linarith⟩, ?_, ⟨by linarith, by linarith, by linarith, by linarith⟩,
    by linarith, by linarith, by linarith⟩
  have s2 : 1 < Real.sqrt 2 := by rw [Real.lt_sqrt (by norm_num)]; norm_num
  have s3 : (Real.sqrt 2)⁻¹ < 1 := inv_lt_one_of_one_lt₀ s2
  have s4 : 0 < (Real.sqrt 2)⁻¹ := by positivity
  have hW : 0 < R + 5 / 4 * w - 3 / 5 * (R / 2 + I) := by linarith
  rw [Fin.strictMono_iff_lt_succ]
  norm_num [Fin.forall_fin_succ]
  exact ⟨mul_pos (by linarith) hW, mul_lt_mul_of_pos_right (by linarith) hW, by linarith, by linarith⟩

/-- witness: unequal masses and opposite spins -/
lemma xas_witness : (⟨36, 29, 0.5, -0.3⟩ : Theta).Physical where
  m1_pos := by norm_num
  m2_pos := by norm_num
  chi1_le := by norm_num [abs_le]
  chi2_le := by norm_num [abs_le]

example : StrictMono (ringdown_phase_nodes ⟨36, 29, 0.5, -0.3⟩) := (C92_regions_ordered _ xas_witness).2.2.1

/-! ### C62, C64, C65, C68 for every physical binary -/

/-- C62 with no hypothesis on the fits: the phase of every physical binary is C¹ up to the cutoff. -/
theorem C62_phase_C1_physical (theta : Theta) (h : theta.Physical) (T : Table) :
    ContDiffOn ℝ 1 (fun f => Phase f theta T) (Ioo 0 (0.3 / ((theta.m1 + theta.m2) * gt))) := by
  obtain ⟨-, ⟨a, b, -⟩, -, -, d, -⟩ := C92_regions_ordered theta h
  exact C62_phase_C1 theta h.m1_pos h.m2_pos T d.ne' (by linarith) b

/-- and at the level of the masses given to the generator -/
theorem C62_phase_C1_generator (Mc eta chi1 chi2 : ℝ) (hMc : 0 < Mc) (he : 0 < eta) (he' : eta ≤ 1 / 4) (h1 : |chi1| ≤ 1)
    (h2 : |chi2| ≤ 1) :
    ContDiffOn ℝ 1 (fun f => Phase f (thetaOf Mc eta chi1 chi2) PhenomX_phase_coeff_table)
      (Ioo 0 (0.3 / (((thetaOf Mc eta chi1 chi2).m1 + (thetaOf Mc eta chi1 chi2).m2) * gt))) :=
  C62_phase_C1_physical _ (thetaOf_physical hMc he he' h1 h2) _

/-- C64 for every physical binary: the intermediate and the inspiral phase slopes take their collocation values, the
    intermediate slope needs no correction at the lower end, and the ringdown amplitude takes its fitted value at the peak. -/
theorem C64_physical (theta : Theta) (h : theta.Physical) (T : Table) (dIN dRD cL : ℝ) :
    (∀ j : Fin 5, deriv (fun x => get_intermediate_raw_phase x theta T dIN dRD cL) (intermediate_phase_nodes theta j) =
      intermediate_phase_values theta T dIN dRD j) ∧
    deriv (fun x => get_intermediate_raw_phase x theta T dIN dRD cL) (fPhase1 theta) = dIN ∧
    (∀ j : Fin 4, deriv (fun x => get_inspiral_phase x theta T - tf2Phase theta x) (inspiral_phase_nodes theta j) =
      5 / (128 * Real.pi ^ ((5 : ℝ) / 3)) * inspiral_phase_values theta T j) ∧
    (∀ x, (get_mergerringdown_Amp (get_mergerringdown_Amp x theta PhenomX_amp_coeff_table).2 theta
      PhenomX_amp_coeff_table).1 = (ringdown_Amp_fits theta PhenomX_amp_coeff_table).2.2) := by
  obtain ⟨⟨a0, -⟩, ⟨a, b, -⟩, -, ⟨-, -, -, -⟩, d, -, g⟩ := C92_regions_ordered theta h
  have hR : (cut theta).fRD ≠ 0 := by
    have := (fRD_range h).1
    rw [show (cut theta).fRD = fRDof (spinOf theta) (eradOf theta) from congrArg Cutoffs.fRD (cutoffs_eq theta)]
    linarith
  exact ⟨C64_phase_intermediate theta T dIN dRD cL d.ne' hR (by linarith) b,
    C64_phase_no_slope_correction theta T dIN dRD cL d.ne' hR (by linarith) b,
    C64_phase_inspiral theta T (by linarith), C64_amp_ringdown theta _ (mul_pos d g).ne'⟩

/-- C65 for every physical binary: the strain is exactly zero above f M = 0.3 s. -/
theorem C65_zero_physical (Mc eta chi1 chi2 D tc phic f_ref : ℝ) (hMc : 0 < Mc) (he : 0 < eta) (he' : eta ≤ 1 / 4)
    (h1 : |chi1| ≤ 1) (h2 : |chi2| ≤ 1) (grid : List ℝ) (j : ℕ) (hj : j < grid.length)
    (hx : 0.3 < grid.getD j 0 * (((thetaOf Mc eta chi1 chi2).m1 + (thetaOf Mc eta chi1 chi2).m2) * gt)) :
    (XAS.gen_IMRPhenomXAS grid [Mc, eta, chi1, chi2, D, tc, phic] f_ref).getD j 0 = 0 := by
  obtain ⟨-, -, -, ⟨-, a, b, c⟩, -⟩ := C92_regions_ordered _ (thetaOf_physical hMc he he' h1 h2)
  exact C65_zero Mc eta chi1 chi2 D tc phic f_ref (by linarith) (by linarith) grid j hj hx

example : (0 : ℝ) < 28 ∧ (0 : ℝ) < 0.24 ∧ (0.24 : ℝ) ≤ 1 / 4 ∧ |(0.9 : ℝ)| ≤ 1 ∧ |(-0.9 : ℝ)| ≤ 1 := by norm_num [abs_le]

/-- C68 for every physical binary with the heavier body first. -/
theorem C68_phase_physical (theta : Theta) (hp : theta.Physical) (T : Table) (h : theta.m2 ≤ theta.m1) :
    let X1 := theta.m1 / (theta.m1 + theta.m2)
    let X2 := theta.m2 / (theta.m1 + theta.m2)
    let η := Spec.eta theta.m1 theta.m2
    let δ := Spec.delta theta.m1 theta.m2
    let χs := (theta.chi1 + theta.chi2) / 2
    let χa := (theta.chi1 - theta.chi2) / 2
    let N := 3 / (128 * η)
    ∃ s : Fin 4 → ℝ, ∀ x : ℝ, 0 < x → x * ((theta.m1 + theta.m2) * gt) < 0.005 →
      let v := (Real.pi * ((theta.m1 + theta.m2) * gt) * x) ^ ((1 : ℝ) / 3)
      Phase x theta T = -Spec.f2Phase theta.m1 theta.m2 theta.chi1 theta.chi2 0 0 1 1 x
        + N * Spec.psi5 η δ χs χa * (1 + Real.log Real.pi)
        - N * (Spec.psi7SS X1 X2 theta.chi1 theta.chi2 + Spec.psi7SSS X1 X2 theta.chi1 theta.chi2) * v ^ 2
        - N * Spec.psi8 η δ χs χa * (3 * Real.log v - 1) * v ^ 3
        + s 0 * v ^ 3 + s 1 * v ^ 4 + s 2 * v ^ 5 + s 3 * v ^ 6 := by
  obtain ⟨-, ⟨a, b, -⟩, -⟩ := C92_regions_ordered theta hp
  obtain ⟨s, hs⟩ := C68_phase theta T hp.m2_pos h b
  exact ⟨s, fun x hx hlt => hs x hx (lt_trans hlt a)⟩

end Ripple

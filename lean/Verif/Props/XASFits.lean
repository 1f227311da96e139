/-
  Property C64, the values at the collocation points: every fitted number of IMRPhenomXAS is a rational function of the
  symmetric mass ratio, one effective spin and the spin difference, given by one row of the coefficient table.
-/
import Mathlib.Algebra.BigOperators.Fin
import Verif.Props.XASPhys

namespace Ripple
open XAS

namespace Spec

/-- `Σ_{k<n} c (i+k) x^k` -/
noncomputable def poly (c : ℕ → ℝ) (i n : ℕ) (x : ℝ) : ℝ := ∑ k : Fin n, c (i + k) * x ^ (k : ℕ)

/-- phase fit of one row of 49 coefficients: a rational function of η without spin, a rational function of η and the spin
    S that vanishes without spin, and a part from the spin difference that vanishes for equal spins -/
noncomputable def phaseFit (c : ℕ → ℝ) (eta S dchi : ℝ) : ℝ :=
  poly c 0 6 eta / poly c 6 4 eta
    + S * (∑ i : Fin 5, poly c (10 + 5 * i) 5 S * eta ^ (i : ℕ)) / poly c 35 4 S
    + dchi * Real.sqrt (1 - 4 * eta) * eta * (poly c 39 6 eta + S * (c 45 + c 46 * eta ^ 2 + c 47 * eta ^ 3))
    + c 48 * dchi ^ 2 * eta

/-- amplitude fit of one row of 42 coefficients -/
noncomputable def ampFit (c : ℕ → ℝ) (eta S dchi : ℝ) : ℝ :=
  poly c 0 5 eta / poly c 5 3 eta
    + (∑ j : Fin 6, poly c (8 + 4 * j) 4 eta * S ^ (j : ℕ)) / (c 32 + c 33 * S + c 34 * eta + c 35 * S ^ 2)
    + dchi * Real.sqrt (1 - 4 * eta) * poly c 36 6 eta

/-- effective spin of the leading post-Newtonian spin-orbit term, normalised to 1 for equal spins 1 -/
noncomputable def chiPN (m1 m2 chi1 chi2 : ℝ) : ℝ :=
  (muH m1 m2 * chi1 + muL m1 m2 * chi2 - 38 / 113 * nu m1 m2 * (chi1 + chi2)) / (1 - 76 / 113 * nu m1 m2)

end Spec

namespace XAS

lemma phaseCV_spec (T : Table) (i : ℕ) (eta S chia : ℝ) : phaseCV T i eta S chia = Spec.phaseFit (T i) eta S chia := by
  simp only [phaseCV, nospin_CV, Eqspin_CV, Uneqspin_CV, Spec.phaseFit, Spec.poly, Fin.sum_univ_succ, Fin.sum_univ_zero,
    eqspin_indx, uneqspin_indx]
  norm_num
  ring

lemma ampCV_spec (T : Table) (i : ℕ) (eta S chia : ℝ) : ampCV T i eta S chia = Spec.ampFit (T i) eta S chia := by
  simp only [ampCV, Amp_Nospin_CV, Amp_Eqspin_CV, Amp_Uneqspin_CV, Spec.ampFit, Spec.poly, Fin.sum_univ_succ, Fin.sum_univ_zero,
    amp_eqspin_indx, amp_uneqspin_indx]
  norm_num
  ring

lemma chipnOf_spec {theta : Theta} (h : theta.Physical) :
    chipnOf theta = Spec.chiPN theta.m1 theta.m2 theta.chi1 theta.chi2 := by
  obtain ⟨e1, e2, -⟩ := dOf_spec h
  unfold chipnOf Spec.chiPN
  rw [e1, e2, etaOf_spec]
  congr 1
  ring

lemma stotOf_spec {theta : Theta} (h : theta.Physical) :
    stotOf theta = Spec.shat theta.m1 theta.m2 theta.chi1 theta.chi2 := by
  obtain ⟨e1, e2, -⟩ := dOf_spec h
  unfold stotOf Spec.shat
  rw [e1, e2]

end XAS

/-- The collocation values of the phase.  Inspiral: row 2 at the third point, rows 0, 1, 3 for the differences to it, spin
    `chiPN`.  Ringdown: row 11 at the ringdown frequency; rows 9, 10, 12 for the differences of the second, third and last
    point to it; row 8 for the difference of the first two.  Intermediate: ends given; the second value is 3/4 of
    (row 4 + ringdown value) plus 1/4 of row 6; the third is row 5 above the ringdown value; row 7 is the difference of the
    fourth and the third.  Spin `shat` for these two. -/
theorem C64_phase_values (theta : Theta) (h : theta.Physical) (T : Table) (dIN dRD : ℝ) :
    let fit := fun i S => Spec.phaseFit (T i) (Spec.nu theta.m1 theta.m2) S (theta.chi1 - theta.chi2)
    let Sp := Spec.chiPN theta.m1 theta.m2 theta.chi1 theta.chi2
    let St := Spec.shat theta.m1 theta.m2 theta.chi1 theta.chi2
    let I := inspiral_phase_values theta T
    let M := intermediate_phase_values theta T dIN dRD
    let R := ringdown_phase_values theta T
    (I 2 = fit 2 Sp ∧ I 0 - I 2 = fit 0 Sp ∧ I 1 - I 2 = fit 1 Sp ∧ I 3 - I 2 = fit 3 Sp) ∧
    (M 0 = dIN ∧ M 4 = dRD ∧ M 1 = 3 / 4 * (fit 4 St + R 3) + 1 / 4 * fit 6 St ∧ M 2 - R 3 = fit 5 St ∧
      M 3 - M 2 = fit 7 St) ∧
    (R 3 = fit 11 St ∧ R 4 - R 3 = fit 12 St ∧ R 2 - R 3 = fit 10 St ∧ R 1 - R 3 = fit 9 St ∧ R 0 - R 1 = fit 8 St) := by
  intro fit Sp St I M R
  have hI : I = ![phaseCV T 0 (etaOf theta) (chipnOf theta) (theta.chi1 - theta.chi2) +
      phaseCV T 2 (etaOf theta) (chipnOf theta) (theta.chi1 - theta.chi2),
      phaseCV T 1 (etaOf theta) (chipnOf theta) (theta.chi1 - theta.chi2) +
      phaseCV T 2 (etaOf theta) (chipnOf theta) (theta.chi1 - theta.chi2),
      phaseCV T 2 (etaOf theta) (chipnOf theta) (theta.chi1 - theta.chi2),
      phaseCV T 3 (etaOf theta) (chipnOf theta) (theta.chi1 - theta.chi2) +
      phaseCV T 2 (etaOf theta) (chipnOf theta) (theta.chi1 - theta.chi2)] := rfl
  have hR : R = ![phaseCV T 8 (etaOf theta) (stotOf theta) (theta.chi1 - theta.chi2) +
      (phaseCV T 9 (etaOf theta) (stotOf theta) (theta.chi1 - theta.chi2) +
        phaseCV T 11 (etaOf theta) (stotOf theta) (theta.chi1 - theta.chi2)),
      phaseCV T 9 (etaOf theta) (stotOf theta) (theta.chi1 - theta.chi2) +
        phaseCV T 11 (etaOf theta) (stotOf theta) (theta.chi1 - theta.chi2),
      phaseCV T 10 (etaOf theta) (stotOf theta) (theta.chi1 - theta.chi2) +
        phaseCV T 11 (etaOf theta) (stotOf theta) (theta.chi1 - theta.chi2),
      phaseCV T 11 (etaOf theta) (stotOf theta) (theta.chi1 - theta.chi2),
      phaseCV T 12 (etaOf theta) (stotOf theta) (theta.chi1 - theta.chi2) +
        phaseCV T 11 (etaOf theta) (stotOf theta) (theta.chi1 - theta.chi2)] := rfl
  have hM : M = ![dIN, 0.75 * (phaseCV T 4 (etaOf theta) (stotOf theta) (theta.chi1 - theta.chi2) +
        phaseCV T 11 (etaOf theta) (stotOf theta) (theta.chi1 - theta.chi2)) +
      0.25 * phaseCV T 6 (etaOf theta) (stotOf theta) (theta.chi1 - theta.chi2),
      phaseCV T 5 (etaOf theta) (stotOf theta) (theta.chi1 - theta.chi2) +
        phaseCV T 11 (etaOf theta) (stotOf theta) (theta.chi1 - theta.chi2),
      phaseCV T 7 (etaOf theta) (stotOf theta) (theta.chi1 - theta.chi2) +
        (phaseCV T 5 (etaOf theta) (stotOf theta) (theta.chi1 - theta.chi2) +
        phaseCV T 11 (etaOf theta) (stotOf theta) (theta.chi1 - theta.chi2)), dRD] := rfl
  simp only [phaseCV_spec, etaOf_spec, chipnOf_spec h, stotOf_spec h] at hI hR hM
  rw [hI, hR, hM]
  refine ⟨⟨?_, ?_, ?_, ?_⟩, ⟨?_, ?_, ?_, ?_, ?_⟩, ?_, ?_, ?_, ?_, ?_⟩ <;> (simp [fit, Sp, St]; try norm_num)

/-- The fitted numbers of the amplitude: rows 0, 1, 2 at the three inspiral points with spin `chiPN`; rows 4, 5, 6 for the
    two shape parameters and the peak value of the ringdown, and row 3 half way between the two regions, with spin `shat`. -/
theorem C64_amp_values (theta : Theta) (h : theta.Physical) (A : Table) (F4 : ℝ) (hF : ampMatchIN theta ≠ F4) :
    let fit := fun i S => Spec.ampFit (A i) (Spec.nu theta.m1 theta.m2) S (theta.chi1 - theta.chi2)
    let Sp := Spec.chiPN theta.m1 theta.m2 theta.chi1 theta.chi2
    let St := Spec.shat theta.m1 theta.m2 theta.chi1 theta.chi2
    let Fm := (ampMatchIN theta + F4) / 2
    (∀ i : Fin 3, inspiral_Amp_values theta A i = fit i Sp) ∧
    ringdown_Amp_fits theta A = (fit 4 St, fit 5 St, fit 6 St) ∧
    get_intermediate_Amp Fm theta A F4 = Fm ^ ((7 : ℝ) / 6) * fit 3 St := by
  intro fit Sp St Fm
  refine ⟨fun i => ?_, ?_, ?_⟩
  · have e : inspiral_Amp_values theta A = ![ampCV A 0 (etaOf theta) (chipnOf theta) (theta.chi1 - theta.chi2),
      ampCV A 1 (etaOf theta) (chipnOf theta) (theta.chi1 - theta.chi2),
      ampCV A 2 (etaOf theta) (chipnOf theta) (theta.chi1 - theta.chi2)] := rfl
    simp only [ampCV_spec, etaOf_spec, chipnOf_spec h] at e
    rw [e]
    fin_cases i <;> rfl
  · have e : ringdown_Amp_fits theta A = (ampCV A 4 (etaOf theta) (stotOf theta) (theta.chi1 - theta.chi2),
      ampCV A 5 (etaOf theta) (stotOf theta) (theta.chi1 - theta.chi2),
      ampCV A 6 (etaOf theta) (stotOf theta) (theta.chi1 - theta.chi2)) := rfl
    simp only [ampCV_spec, etaOf_spec, stotOf_spec h] at e
    exact e
  · have e := C64_amp_midpoint theta A F4 hF
    simp only [] at e
    rw [e]
    congr 1
    change _ = Spec.ampFit (A 3) (Spec.nu theta.m1 theta.m2) (Spec.shat theta.m1 theta.m2 theta.chi1 theta.chi2) _
    rw [ampCV_spec, ← stotOf_spec h, ← etaOf_spec]
    congr 1
    unfold stotOf
    rw [show Real.sqrt (1 - 4 * (theta.m1 * gt * (theta.m2 * gt) / (theta.m1 * gt + theta.m2 * gt) ^ 2)) = dOf theta from rfl]
    rw [← mul_div_mul_left _ _ (show (0.25 : ℝ) ≠ 0 by norm_num)]
    congr 1 <;> ring

/-- witness: the shipped tables and a physical binary; the two regions are distinct -/
example : (⟨36, 29, 0.5, -0.3⟩ : Theta).Physical ∧
    ampMatchIN ⟨36, 29, 0.5, -0.3⟩ ≠ ampPeak ⟨36, 29, 0.5, -0.3⟩ PhenomX_amp_coeff_table :=
  ⟨xas_witness, (C92_regions_ordered _ xas_witness).2.2.2.1.2.1.ne⟩

end Ripple

/-
  Property C102: the linear systems behind the IMRPhenomXAS phase are never singular for a physical binary, so its slope takes
  the fitted values at the collocation frequencies, also in the ringdown.  Everything is for an arbitrary coefficient table `T`.
-/
import Verif.Proofs.XASSlope

namespace Ripple
open Set XAS

/-- C64 for the ringdown with no hypothesis on the collocation matrix: the slope of the raw ringdown phase of every physical
    binary takes the five fitted values at the five collocation frequencies. -/
theorem C64_phase_ringdown_physical (theta : Theta) (h : theta.Physical) (T : Table) (j : Fin 5) :
    deriv (fun x => (get_mergerringdown_raw_phase x theta T).1) (ringdown_phase_nodes theta j) =
      ringdown_phase_values theta T j := by
  obtain ⟨⟨a0, a1⟩, -, hmono, -, hd, -⟩ := C92_regions_ordered theta h
  refine C64_phase_ringdown theta T hd.ne' (fun i => ?_) (rd_det h) j
  refine lt_of_lt_of_le ?_ (hmono.monotone (Fin.zero_le i))
  have e : ringdown_phase_nodes theta 0 = fIM theta := by
    have := (C64_phase_nodes theta).2.2 0
    simpa using this
  rw [e]
  linarith

/-- For every physical binary and any values prescribed at the collocation frequencies there is exactly one combination of the
    basis functions of each of the three fits that takes them: 1, x^(1/3), x^(2/3), x for the inspiral (four frequencies
    from 0.0026 to 1.02 fMECO); powers 0 to 4 of fRD/x for the intermediate region (five frequencies between the ends of that region);
    1, x^(-1/3), x^(-2), x^(-4) and the Lorentzian of the ringdown mode for the ringdown (five frequencies from
    0.6 (fRD/2 + fISCO) to fRD + 1.25 fdamp). -/
theorem C102_fits_unique (theta : Theta) (h : theta.Physical) :
    (∀ v : Fin 4 → ℝ, ∃! c : Fin 4 → ℝ, ∀ j : Fin 4,
      let x := 0.0026 + (1.02 * (cut theta).fMECO - 0.0026) * ((1 - Real.cos (j * Real.pi / 3)) / 2)
      c 0 + c 1 * x ^ ((1 : ℝ) / 3) + c 2 * x ^ ((2 : ℝ) / 3) + c 3 * x = v j) ∧
    (∀ v : Fin 5 → ℝ, ∃! c : Fin 5 → ℝ, ∀ j : Fin 5,
      let x := fPhase1 theta + (fPhase2 theta - fPhase1 theta) * ((1 - Real.cos (j * Real.pi / 4)) / 2)
      let y := (cut theta).fRD / x
      c 0 + c 1 * y + c 2 * y ^ 2 + c 3 * y ^ 3 + c 4 * y ^ 4 = v j) ∧
    (∀ v : Fin 5 → ℝ, ∃! c : Fin 5 → ℝ, ∀ j : Fin 5,
      let x := if j = 3 then (cut theta).fRD else
        fIM theta + ((cut theta).fRD + 1.25 * (cut theta).fdamp - fIM theta) * ((1 - Real.cos (j * Real.pi / 4)) / 2)
      c 0 + c 1 * x ^ (-((1 : ℝ) / 3)) + c 2 / x ^ 2 + c 3 / x ^ 4 +
        c 4 / ((cut theta).fdamp ^ 2 + (x - (cut theta).fRD) ^ 2) = v j) := by
  obtain ⟨n1, n2, n3⟩ := C64_phase_nodes theta
  obtain ⟨⟨a0, a1⟩, ⟨b0, b1, -⟩, hmono, -, hd, -⟩ := C92_regions_ordered theta h
  have hR : 0.045 < (cut theta).fRD := by
    rw [show (cut theta).fRD = fRDof (spinOf theta) (eradOf theta) from congrArg Cutoffs.fRD (cutoffs_eq theta)]
    exact (fRD_range h).1
  refine ⟨fun v => ?_, fun v => ?_, fun v => ?_⟩
  · have hdet := ins_phase_det h
    have key := exists_unique_mulVec hdet v
    refine (existsUnique_congr fun c => forall_congr' fun j => ?_).1 (key)
    rw [← n1 j]
    generalize inspiral_phase_nodes theta = CP
    fin_cases j <;>
      simp [inspiral_phase_matrix, Matrix.mulVec, dotProduct, Fin.sum_univ_succ] <;>
      (constructor <;> intro q <;> linarith [q])
  · have hdet := int_phase_det h
    have key := exists_unique_mulVec hdet v
    refine (existsUnique_congr fun c => forall_congr' fun j => ?_).1 (key)
    rw [← n2 j]
    generalize intermediate_phase_nodes theta = CP
    generalize (cut theta).fRD = r
    fin_cases j <;>
      simp only [intermediate_phase_matrix, Matrix.mulVec, dotProduct, Fin.sum_univ_succ, Fin.sum_univ_zero] <;>
      simp <;>
      (constructor <;> intro q <;> linear_combination q)
  · have hdet := rd_det_scaled h
    have key := exists_unique_mulVec hdet v
    refine (existsUnique_congr fun c => forall_congr' fun j => ?_).1 (key)
    rw [← n3 j]
    generalize ringdown_phase_nodes theta = CP
    generalize (cut theta).fRD = r
    generalize (cut theta).fdamp = w
    fin_cases j <;>
      simp only [Matrix.mulVec, dotProduct, Fin.sum_univ_succ, Fin.sum_univ_zero] <;>
      simp <;>
      (constructor <;> intro q <;> linear_combination q)

/-- What a user sees of the three fits.  With `v i` the `i`-th fitted phase quantity of the table, evaluated at the symmetric
    mass ratio, the total spin and the spin difference, `x` a collocation frequency, `M` the total mass in seconds and `S x` the slope of
    the phase with respect to f M, times the symmetric mass ratio, at f = x/M:
    at the ringdown frequency and at the two collocation frequencies next to it the slopes differ by exactly the fitted
    differences `v 10` and `v 12`; at the three inner collocation frequencies of the intermediate region the slope is the fitted
    one, with no shift, relative to the value `v 11` at the ringdown frequency. -/
theorem C102_slopes (theta : Theta) (h : theta.Physical) (T : Table) :
    let M := (theta.m1 + theta.m2) * gt
    let η := Spec.nu theta.m1 theta.m2
    let v := fun i => phaseCV T i η (Spec.shat theta.m1 theta.m2 theta.chi1 theta.chi2) (theta.chi1 - theta.chi2)
    let S := fun x => η * (deriv (fun f => Phase f theta T) (x / M) / M)
    let fmax := (cut theta).fRD + 1.25 * (cut theta).fdamp
    let node := fun s => (fPhase1 theta + fPhase2 theta) / 2 + s * (fPhase2 theta - fPhase1 theta) / (2 * Real.sqrt 2)
    S fmax - S (cut theta).fRD = v 12 ∧
    S ((fIM theta + fmax) / 2) - S (cut theta).fRD = v 10 ∧
    S (node (-1)) = 3 / 4 * (v 4 + v 11) + 1 / 4 * v 6 ∧
    S (node 0) = v 5 + v 11 ∧
    S (node 1) = v 7 + v 5 + v 11 := by
  intro M η v S fmax node
  obtain ⟨⟨dIN, cL, hI⟩, ⟨b, hRD⟩⟩ := phase_slope_regions theta h T
  obtain ⟨-, ⟨b0, b1, -⟩, hmono, -, hd, -⟩ := C92_regions_ordered theta h
  obtain ⟨m1, m2⟩ := rd_mid h
  obtain ⟨e1, e2, e3⟩ := dOf_spec h
  have hMpos : 0 < M := by have := gt_pos; have := h.m1_pos; have := h.m2_pos; simp only [M]; positivity
  have hη : 0 < η := by have := h.m1_pos; have := h.m2_pos; simp only [η, Spec.nu]; positivity
  have hSt : stotOf theta = Spec.shat theta.m1 theta.m2 theta.chi1 theta.chi2 := by
    unfold stotOf Spec.shat
    rw [e1, e2]
  have hv : ∀ i, phaseCV T i (etaOf theta) (stotOf theta) (theta.chi1 - theta.chi2) = v i := fun i => by
    rw [hSt, etaOf_spec]
  have hm : η * (1 / η * M / M) = 1 := by field_simp
  have hS : ∀ x d : ℝ, deriv (fun f => Phase f theta T) (x / M) = 1 / η * (d * M) → S x = d := by
    intro x d hx
    simp only [S]
    rw [hx]
    field_simp
  have hrd : ∀ x, fPhase2 theta < x → x < 0.3 →
      S x = deriv (fun y => (get_mergerringdown_raw_phase y theta T).1) x + b := fun x hx hx' => hS x _ (hRD x hx hx')
  have n3 := (C64_phase_nodes theta).2.2
  have hcos : Real.cos (2 * Real.pi / 4) = 0 := by
    rw [show 2 * Real.pi / 4 = Real.pi / 2 by ring, Real.cos_pi_div_two]
  have k2 : ringdown_phase_nodes theta 2 = (fIM theta + fmax) / 2 := by
    rw [n3 2]; simp [hcos, fmax]; ring
  have k3 : ringdown_phase_nodes theta 3 = (cut theta).fRD := by rw [n3 3]; simp
  have k4 : ringdown_phase_nodes theta 4 = fmax := by rw [n3 4]; simp [fmax]
  have o23 : ringdown_phase_nodes theta 2 < ringdown_phase_nodes theta 3 := hmono (by decide)
  have o34 : ringdown_phase_nodes theta 3 < ringdown_phase_nodes theta 4 := hmono (by decide)
  have c := C64_phase_ringdown_physical theta h T
  have c2 := c 2
  have c3 := c 3
  have c4 := c 4
  rw [k2] at c2 o23
  rw [k3] at c3 o23 o34
  rw [k4] at c4 o34
  obtain ⟨w2, w3, w4⟩ := rd_values theta T
  rw [hv, hv] at w2 w4
  rw [hv] at w3
  have hm1 : fPhase2 theta < (fIM theta + fmax) / 2 := m1
  have hm2 : fmax < 0.3 := m2
  rw [hrd fmax (by linarith) hm2, hrd _ (hm1.trans o23) (o34.trans hm2), hrd _ hm1 (by linarith), c2, c3, c4, w2, w3, w4]
  have hnode : ∀ s : ℝ, |s| ≤ 1 → fPhase1 theta < node s ∧ node s < fPhase2 theta := by
    exact fun s hs => node_inside b1 hs
  have hint : ∀ s : ℝ, |s| ≤ 1 → S (node s) = deriv (fun y => get_intermediate_raw_phase y theta T dIN
      (ringdown_phase_values theta T 0) cL) (node s) := fun s hs => hS _ _ (hI _ (hnode s hs).1 (hnode s hs).2)
  have ci := (C64_physical theta h T dIN (ringdown_phase_values theta T 0) cL).1
  have hn := int_nodes theta
  have i1 : intermediate_phase_nodes theta 1 = node (-1) := by
    rw [hn]; simp only [node]
    change (1 / 2 - 1 / (2 * Real.sqrt 2)) * (fPhase2 theta - fPhase1 theta) + fPhase1 theta = _
    ring
  have i2 : intermediate_phase_nodes theta 2 = node 0 := by
    rw [hn]; simp only [node]
    change 1 / 2 * (fPhase2 theta - fPhase1 theta) + fPhase1 theta = _
    ring
  have i3 : intermediate_phase_nodes theta 3 = node 1 := by
    rw [hn]; simp only [node]
    change (1 / 2 + 1 / (2 * Real.sqrt 2)) * (fPhase2 theta - fPhase1 theta) + fPhase1 theta = _
    ring
  rw [hint (-1) (by norm_num), hint 0 (by norm_num), hint 1 (by norm_num), ← i1, ← i2, ← i3, ci 1, ci 2, ci 3]
  obtain ⟨u1, u2, u3⟩ := int_values theta T dIN (ringdown_phase_values theta T 0)
  rw [hv, hv, hv] at u1 u3
  rw [hv, hv] at u2
  rw [u1, u2, u3]
  refine ⟨by ring, by ring, by norm_num, rfl, by ring⟩

example : (⟨36, 29, 0.5, -0.3⟩ : Theta).Physical := xas_witness

end Ripple

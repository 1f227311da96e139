/-
  Properties C62 and C64 (phase part): the IMRPhenomXAS phase is continuously differentiable, and its slope takes the
  fitted values at the collocation frequencies. Everything is for an arbitrary coefficient table `T`.
-/
import Verif.Proofs.XASPhase
import Mathlib.Analysis.SpecialFunctions.Trigonometric.Basic

namespace Ripple
open Set

namespace XAS

/-- the four characteristic frequencies (times M) of a binary -/
noncomputable def cut (theta : Theta) : Cutoffs := get_cutoff_fMs theta.m1 theta.m2 theta.chi1 theta.chi2

/-- start of the ringdown fit, 0.6 (fRD/2 + fISCO) -/
noncomputable def fIM (theta : Theta) : ℝ := 0.6 * ((cut theta).fRD / 2 + (cut theta).fISCO)

/-- end of the inspiral phase region (dimensionless): 3 % of the width below the MECO frequency -/
noncomputable def fPhase1 (theta : Theta) : ℝ := (cut theta).fMECO - 0.03 * (fIM theta - (cut theta).fMECO)

/-- start of the ringdown phase region (dimensionless): 1.5 % of the width above fIM -/
noncomputable def fPhase2 (theta : Theta) : ℝ := fIM theta + 0.015 * (fIM theta - (cut theta).fMECO)

lemma f1_eq (theta : Theta) : (get_cutoff_fMs theta.m1 theta.m2 theta.chi1 theta.chi2).fMECO - 1 *
    ((0.6 * (0.5 * (get_cutoff_fMs theta.m1 theta.m2 theta.chi1 theta.chi2).fRD +
    (get_cutoff_fMs theta.m1 theta.m2 theta.chi1 theta.chi2).fISCO) -
    (get_cutoff_fMs theta.m1 theta.m2 theta.chi1 theta.chi2).fMECO) * 0.03) = fPhase1 theta := by
  unfold fPhase1 fIM cut; ring

lemma f2_eq (theta : Theta) : 0.6 * (0.5 * (get_cutoff_fMs theta.m1 theta.m2 theta.chi1 theta.chi2).fRD +
    (get_cutoff_fMs theta.m1 theta.m2 theta.chi1 theta.chi2).fISCO) + 0.5 *
    ((0.6 * (0.5 * (get_cutoff_fMs theta.m1 theta.m2 theta.chi1 theta.chi2).fRD +
    (get_cutoff_fMs theta.m1 theta.m2 theta.chi1 theta.chi2).fISCO) -
    (get_cutoff_fMs theta.m1 theta.m2 theta.chi1 theta.chi2).fMECO) * 0.03) = fPhase2 theta := by
  unfold fPhase2 fIM cut; ring

end XAS
open XAS

/-- The glued phase is C¹ for all frequencies with 0 < f M < 0.3, whatever the table of fit coefficients and whatever
    the collocation systems return, when the transition frequencies are positive and ordered. -/
theorem C62_phase_C1 (theta : Theta) (h1 : 0 < theta.m1) (h2 : 0 < theta.m2) (T : Table)
    (_hd : (cut theta).fdamp ≠ 0) (hf1 : 0 < fPhase1 theta) (hf : fPhase1 theta < fPhase2 theta) :
    ContDiffOn ℝ 1 (fun f => Phase f theta T) (Ioo 0 (0.3 / ((theta.m1 + theta.m2) * gt))) := by
  have hM : 0 < (theta.m1 + theta.m2) * gt := by have := gt_pos; positivity
  have eM : (theta.m1 + theta.m2) * gt = theta.m1 * gt + theta.m2 * gt := by ring
  rw [eM] at hM ⊢
  set M := theta.m1 * gt + theta.m2 * gt with hMdef
  unfold Phase
  simp only [f1_eq, f2_eq, ← hMdef]
  have key := glued_C1 (I := fun x => get_inspiral_phase x theta T)
    (N := fun x => get_intermediate_raw_phase x theta T (deriv (fun x => get_inspiral_phase x theta T) (fPhase1 theta))
      (ringdown_phase_values theta T 0) (-(dphase0 * ringdown_phase_coeffs theta T 4)))
    (R := fun x => (get_mergerringdown_raw_phase x theta T).1) (fun x hx => cd_ins theta T hx)
    (fun x hx => cd_int theta T _ _ _ hx) (fun x hx => cd_rd theta T hx) (fc := fM_CUT) hf1 hf _ _ _ _ rfl rfl rfl rfl
  have hcomp := key.comp (s := Ioo 0 (0.3 / M)) (f := fun f : ℝ => f * M) (by fun_prop) (by
    intro f hf
    refine ⟨mul_pos hf.1 hM, ?_⟩
    have := (lt_div_iff₀ hM).1 hf.2
    exact this)
  exact (contDiffOn_const (c := 1 / (theta.m1 * gt * (theta.m2 * gt) / M ^ 2))).mul hcomp

/-! ### C64, phase part: collocation -/

/-- The slope of the intermediate phase takes the five collocation values: the slope of the inspiral phase at the lower
    end, the value handed over by the ringdown fit at the upper end, and the fitted values in between. -/
theorem C64_phase_intermediate (theta : Theta) (T : Table) (dIN dRD cL : ℝ) (hd : (cut theta).fdamp ≠ 0)
    (hr : (cut theta).fRD ≠ 0) (hf1 : 0 < fPhase1 theta) (hf : fPhase1 theta < fPhase2 theta) (j : Fin 5) :
    deriv (fun x => get_intermediate_raw_phase x theta T dIN dRD cL) (intermediate_phase_nodes theta j) =
      intermediate_phase_values theta T dIN dRD j := by
  set r2 : ℝ := 1 / (2 * Real.sqrt 2) with hr2
  have hr2pos : 0 < r2 := by positivity
  have hr2lt : r2 < 1 / 2 := by
    rw [hr2, div_lt_div_iff₀ (by positivity) (by norm_num)]
    have : (1 : ℝ) < Real.sqrt 2 := by
      rw [Real.lt_sqrt (by norm_num)]; norm_num
    linarith
  set w := fPhase2 theta - fPhase1 theta with hw
  have hwpos : 0 < w := by linarith
  have hn : intermediate_phase_nodes theta = ![0 * w + fPhase1 theta, (1 / 2 - r2) * w + fPhase1 theta,
      1 / 2 * w + fPhase1 theta, (1 / 2 + r2) * w + fPhase1 theta, 1 * w + fPhase1 theta] := by
    unfold intermediate_phase_nodes
    simp only [f1_eq, f2_eq]
    rfl
  have hpos : ∀ i, 0 < intermediate_phase_nodes theta i := by
    intro i
    rw [hn]
    fin_cases i
    · simpa using hf1
    · have : 0 < (1 / 2 - r2) * w := mul_pos (by linarith) hwpos
      change 0 < (1 / 2 - r2) * w + fPhase1 theta
      linarith
    · change 0 < 1 / 2 * w + fPhase1 theta
      linarith
    · have : 0 < (1 / 2 + r2) * w := mul_pos (by linarith) hwpos
      change 0 < (1 / 2 + r2) * w + fPhase1 theta
      linarith
    · change 0 < 1 * w + fPhase1 theta
      linarith
  have hmono : StrictMono (intermediate_phase_nodes theta) := by
    rw [Fin.strictMono_iff_lt_succ, hn]
    intro i
    fin_cases i
    · change 0 * w + fPhase1 theta < (1 / 2 - r2) * w + fPhase1 theta
      nlinarith
    · change (1 / 2 - r2) * w + fPhase1 theta < 1 / 2 * w + fPhase1 theta
      nlinarith
    · change 1 / 2 * w + fPhase1 theta < (1 / 2 + r2) * w + fPhase1 theta
      nlinarith
    · change (1 / 2 + r2) * w + fPhase1 theta < 1 * w + fPhase1 theta
      nlinarith
  rw [int_slope theta T dIN dRD cL (hpos j) hd]
  have hdet := int_det hr (fun i => (hpos i).ne') hmono.injective
  have hs := congrFun (Jnp.solve_spec hdet (![
      intermediate_phase_values theta T dIN dRD 0 - 4 * cL / (4 * (cut theta).fdamp * (cut theta).fdamp +
        (intermediate_phase_nodes theta 0 - (cut theta).fRD) * (intermediate_phase_nodes theta 0 - (cut theta).fRD)),
      intermediate_phase_values theta T dIN dRD 1 - 4 * cL / (4 * (cut theta).fdamp * (cut theta).fdamp +
        (intermediate_phase_nodes theta 1 - (cut theta).fRD) * (intermediate_phase_nodes theta 1 - (cut theta).fRD)),
      intermediate_phase_values theta T dIN dRD 2 - 4 * cL / (4 * (cut theta).fdamp * (cut theta).fdamp +
        (intermediate_phase_nodes theta 2 - (cut theta).fRD) * (intermediate_phase_nodes theta 2 - (cut theta).fRD)),
      intermediate_phase_values theta T dIN dRD 3 - 4 * cL / (4 * (cut theta).fdamp * (cut theta).fdamp +
        (intermediate_phase_nodes theta 3 - (cut theta).fRD) * (intermediate_phase_nodes theta 3 - (cut theta).fRD)),
      intermediate_phase_values theta T dIN dRD 4 - 4 * cL / (4 * (cut theta).fdamp * (cut theta).fdamp +
        (intermediate_phase_nodes theta 4 - (cut theta).fRD) * (intermediate_phase_nodes theta 4 - (cut theta).fRD))])) j
  change (intermediate_phase_matrix _ _).mulVec (intermediate_phase_coeffs theta T dIN dRD cL) j = _ at hs
  change _ + _ + _ + _ + _ + 4 * cL / (4 * (cut theta).fdamp * (cut theta).fdamp +
    (intermediate_phase_nodes theta j - (cut theta).fRD) * (intermediate_phase_nodes theta j - (cut theta).fRD)) = _
  change intermediate_phase_coeffs theta T dIN dRD cL 0 + intermediate_phase_coeffs theta T dIN dRD cL 1 *
    ((cut theta).fRD / intermediate_phase_nodes theta j) + intermediate_phase_coeffs theta T dIN dRD cL 2 *
    ((cut theta).fRD / intermediate_phase_nodes theta j) ^ 2 + intermediate_phase_coeffs theta T dIN dRD cL 3 *
    ((cut theta).fRD / intermediate_phase_nodes theta j) ^ 3 + intermediate_phase_coeffs theta T dIN dRD cL 4 *
    ((cut theta).fRD / intermediate_phase_nodes theta j) ^ 4 + _ = _
  generalize intermediate_phase_coeffs theta T dIN dRD cL = k at *
  generalize intermediate_phase_nodes theta = CP at *
  generalize intermediate_phase_values theta T dIN dRD = V at *
  fin_cases j <;>
    simp [intermediate_phase_matrix, Matrix.mulVec, dotProduct, Fin.sum_univ_succ] at hs ⊢ <;>
    linear_combination hs

/-- In particular the raw intermediate phase already joins the inspiral phase with the right slope (the slope
    correction `alpha1` of the code is zero). -/
theorem C64_phase_no_slope_correction (theta : Theta) (T : Table) (dIN dRD cL : ℝ) (hd : (cut theta).fdamp ≠ 0)
    (hr : (cut theta).fRD ≠ 0) (hf1 : 0 < fPhase1 theta) (hf : fPhase1 theta < fPhase2 theta) :
    deriv (fun x => get_intermediate_raw_phase x theta T dIN dRD cL) (fPhase1 theta) = dIN := by
  have h := C64_phase_intermediate theta T dIN dRD cL hd hr hf1 hf 0
  have e : intermediate_phase_nodes theta 0 = fPhase1 theta := by
    unfold intermediate_phase_nodes
    simp only [f1_eq, f2_eq]
    change 0 * _ + fPhase1 theta = _
    ring
  rw [e] at h
  exact h

/-- The slope of the inspiral phase minus that of its TaylorF2 part takes, in units of 5/(128 π^(5/3)), the four fitted
    values at the four collocation frequencies between f M = 0.0026 and 1.02 times the MECO frequency. -/
theorem C64_phase_inspiral (theta : Theta) (T : Table) (hm : 0.0026 < 1.02 * (cut theta).fMECO) (j : Fin 4) :
    deriv (fun x => get_inspiral_phase x theta T - tf2Phase theta x) (inspiral_phase_nodes theta j) =
      5 / (128 * Real.pi ^ ((5 : ℝ) / 3)) * inspiral_phase_values theta T j := by
  set w := 1.02 * (cut theta).fMECO - 0.0026 with hw
  have hwpos : 0 < w := by linarith
  have hn : inspiral_phase_nodes theta = ![0 * w + 0.0026, 1 / 4 * w + 0.0026, 3 / 4 * w + 0.0026, 1 * w + 0.0026] := by
    have e : (1.020 : ℝ) = 1.02 := by norm_num
    unfold inspiral_phase_nodes
    simp only [hw, cut, e]
    rfl
  have hmono : StrictMono (inspiral_phase_nodes theta) := by
    rw [Fin.strictMono_iff_lt_succ, hn]
    intro i
    fin_cases i
    · change 0 * w + 0.0026 < 1 / 4 * w + 0.0026
      nlinarith
    · change 1 / 4 * w + 0.0026 < 3 / 4 * w + 0.0026
      nlinarith
    · change 3 / 4 * w + 0.0026 < 1 * w + 0.0026
      nlinarith
  have hpos : ∀ i, 0 < inspiral_phase_nodes theta i := by
    intro i
    refine lt_of_lt_of_le ?_ (hmono.monotone (Fin.zero_le i))
    rw [hn]
    change (0 : ℝ) < 0 * w + 0.0026
    norm_num
  rw [ins_slope theta T (hpos j)]
  have hs := congrFun (Jnp.solve_spec (ins_det hpos hmono.injective) (inspiral_phase_values theta T)) j
  change (inspiral_phase_matrix _).mulVec (inspiral_phase_coeffs theta T) j = _ at hs
  change dphase0 * _ = dphase0 * _
  rw [← hs]
  generalize inspiral_phase_coeffs theta T = k at *
  generalize inspiral_phase_nodes theta = CP at *
  congr 1
  fin_cases j <;>
    simp [inspiral_phase_matrix, Matrix.mulVec, dotProduct, Fin.sum_univ_succ] <;> ring

/-- The slope of the ringdown phase takes the five fitted values at its collocation frequencies, whenever the
    collocation matrix is invertible. -/
theorem C64_phase_ringdown (theta : Theta) (T : Table) (hd : (cut theta).fdamp ≠ 0)
    (hpos : ∀ j, 0 < ringdown_phase_nodes theta j)
    (hdet : (ringdown_phase_matrix (ringdown_phase_nodes theta) (cut theta).fRD (cut theta).fdamp).det ≠ 0) (j : Fin 5) :
    deriv (fun x => (get_mergerringdown_raw_phase x theta T).1) (ringdown_phase_nodes theta j) =
      ringdown_phase_values theta T j := by
  rw [rd_slope theta T (hpos j) hd]
  have hs := congrFun (Jnp.solve_spec hdet (ringdown_phase_values theta T)) j
  change (ringdown_phase_matrix _ _ _).mulVec (ringdown_phase_coeffs theta T) j = _ at hs
  rw [← hs]
  change ringdown_phase_coeffs theta T 0 + _ + _ + _ + ringdown_phase_coeffs theta T 4 * (-dphase0 / ((cut theta).fdamp * (cut theta).fdamp +
    (ringdown_phase_nodes theta j - (cut theta).fRD) * (ringdown_phase_nodes theta j - (cut theta).fRD))) = _
  generalize ringdown_phase_coeffs theta T = k at *
  generalize ringdown_phase_nodes theta = CP at *
  generalize (cut theta).fRD = r
  generalize (cut theta).fdamp = w
  fin_cases j <;>
    simp [ringdown_phase_matrix, Matrix.mulVec, dotProduct, Fin.sum_univ_succ] <;> ring

/-- The collocation frequencies are Chebyshev–Gauss–Lobatto points of their intervals: [0.0026, 1.02 fMECO] (four
    points) for the inspiral, [fPhase1, fPhase2] (five) for the intermediate region, and [fIM, fRD + 1.25 fdamp] (five)
    for the ringdown, where however the fourth point is replaced by fRD. -/
theorem C64_phase_nodes (theta : Theta) :
    (∀ j : Fin 4, inspiral_phase_nodes theta j =
      0.0026 + (1.02 * (cut theta).fMECO - 0.0026) * ((1 - Real.cos (j * Real.pi / 3)) / 2)) ∧
    (∀ j : Fin 5, intermediate_phase_nodes theta j =
      fPhase1 theta + (fPhase2 theta - fPhase1 theta) * ((1 - Real.cos (j * Real.pi / 4)) / 2)) ∧
    (∀ j : Fin 5, ringdown_phase_nodes theta j = if j = 3 then (cut theta).fRD else
      fIM theta + ((cut theta).fRD + 1.25 * (cut theta).fdamp - fIM theta) * ((1 - Real.cos (j * Real.pi / 4)) / 2)) := by
  have s2 : (1 : ℝ) / (2 * Real.sqrt 2) = Real.sqrt 2 / 4 := by
    rw [div_eq_div_iff (by positivity) (by norm_num)]
    have := Real.mul_self_sqrt (show (0 : ℝ) ≤ 2 by norm_num)
    linear_combination (-2) * this
  have c2 : Real.cos (2 * Real.pi / 3) = -(1 / 2) := by
    rw [show 2 * Real.pi / 3 = Real.pi - Real.pi / 3 by ring, Real.cos_pi_sub, Real.cos_pi_div_three]
  have d2 : Real.cos (2 * Real.pi / 4) = 0 := by
    rw [show 2 * Real.pi / 4 = Real.pi / 2 by ring, Real.cos_pi_div_two]
  have d3 : Real.cos (3 * Real.pi / 4) = -(Real.sqrt 2 / 2) := by
    rw [show 3 * Real.pi / 4 = Real.pi - Real.pi / 4 by ring, Real.cos_pi_sub, Real.cos_pi_div_four]
  refine ⟨fun j => ?_, fun j => ?_, fun j => ?_⟩
  · unfold inspiral_phase_nodes cut
    generalize (get_cutoff_fMs theta.m1 theta.m2 theta.chi1 theta.chi2).fMECO = x
    fin_cases j
    · simp
    · simp [Real.cos_pi_div_three]; ring
    · simp [c2]; ring
    · simp; left; norm_num
  · unfold intermediate_phase_nodes
    simp only [f1_eq, f2_eq, s2]
    fin_cases j
    · simp
    · simp [Real.cos_pi_div_four]; ring
    · simp [d2]; ring
    · simp [d3]; ring
    · simp
  · unfold ringdown_phase_nodes fIM cut
    simp only [s2]
    fin_cases j
    · simp; left; ring
    · simp [Real.cos_pi_div_four]; ring
    · simp [d2]; ring
    · simp
    · simp

/-- witness: the zero-spin test-mass values of the characteristic frequencies satisfy the ordering hypotheses -/
example : let fRD : ℝ := 0.0595; let fI : ℝ := 0.0217; let fM : ℝ := 0.0187
    let im := 0.6 * (fRD / 2 + fI)
    0 < fM - 0.03 * (im - fM) ∧ fM - 0.03 * (im - fM) < im + 0.015 * (im - fM) ∧ 0.0026 < 1.02 * fM := by norm_num

end Ripple

/-
  Helper lemmas: slope of the IMRPhenomXAS phase inside the intermediate and the ringdown region.
-/
import Verif.Proofs.XASDetPhys
import Verif.Props.XASPhys

namespace Ripple
open Set
namespace XAS

/-- slopes of the glued phase away from the two joints -/
lemma glued_slope {I N R : ℝ → ℝ} (cN : ∀ x, 0 < x → ContDiffAt ℝ 1 N x)
    (cR : ∀ x, 0 < x → ContDiffAt ℝ 1 R x) {f1 f2 fc : ℝ} (h1 : 0 < f1) (h12 : f1 < f2) (a1 a0 b1 b0 : ℝ) :
    let g := fun x => I x * Jnp.heaviside (f1 - x) 0.5
      + Jnp.heaviside (x - f1) 0.5 * (N x + a1 * x + a0) * Jnp.heaviside (f2 - x) 0.5
      + (R x + b0 + b1 * x) * Jnp.heaviside (x - f2) 0.5 * Jnp.heaviside (fc - x) 0.5
    (∀ x, f1 < x → x < f2 → HasDerivAt g (deriv N x + a1) x) ∧
    (∀ x, f2 < x → x < fc → HasDerivAt g (deriv R x + b1) x) := by
  intro g
  refine ⟨fun x hx hx' => ?_, fun x hx hx' => ?_⟩
  · refine (deriv_add_affine (cN x (h1.trans hx)) a1 a0).congr_of_eventuallyEq ?_
    filter_upwards [Ioo_mem_nhds hx hx'] with y hy
    have k1 := hy.1
    have k2 := hy.2
    change I y * Jnp.heaviside (f1 - y) 0.5
      + Jnp.heaviside (y - f1) 0.5 * (N y + a1 * y + a0) * Jnp.heaviside (f2 - y) 0.5
      + (R y + b0 + b1 * y) * Jnp.heaviside (y - f2) 0.5 * Jnp.heaviside (fc - y) 0.5 = _
    rw [Jnp.heaviside_neg (x := f1 - y) (by linarith), Jnp.heaviside_pos (x := y - f1) (by linarith),
      Jnp.heaviside_pos (x := f2 - y) (by linarith), Jnp.heaviside_neg (x := y - f2) (by linarith)]
    ring
  · refine (deriv_add_affine' (cR x ((h1.trans h12).trans hx)) b1 b0).congr_of_eventuallyEq ?_
    filter_upwards [Ioo_mem_nhds hx hx'] with y hy
    have k1 := hy.1
    have k2 := hy.2
    change I y * Jnp.heaviside (f1 - y) 0.5
      + Jnp.heaviside (y - f1) 0.5 * (N y + a1 * y + a0) * Jnp.heaviside (f2 - y) 0.5
      + (R y + b0 + b1 * y) * Jnp.heaviside (y - f2) 0.5 * Jnp.heaviside (fc - y) 0.5 = _
    rw [Jnp.heaviside_neg (x := f1 - y) (by linarith), Jnp.heaviside_pos (x := y - f1) (by linarith),
      Jnp.heaviside_neg (x := f2 - y) (by linarith), Jnp.heaviside_pos (x := y - f2) (by linarith),
      Jnp.heaviside_pos (x := fc - y) (by linarith)]
    ring

lemma hd_scaled {g : ℝ → ℝ} {x d M k : ℝ} (hM : M ≠ 0) (h : HasDerivAt g d x) :
    deriv (fun f => k * g (f * M)) (x / M) = k * (d * M) := by
  have e : x / M * M = x := div_mul_cancel₀ x hM
  have hm : HasDerivAt (fun f : ℝ => f * M) M (x / M) := by simpa using (hasDerivAt_id (x / M)).mul_const M
  have h' : HasDerivAt g d (x / M * M) := by rw [e]; exact h
  exact ((h'.comp (x / M) hm).const_mul k).deriv

/-- slope of the phase: in the intermediate region that of the raw intermediate phase, in the ringdown region that of the raw
    ringdown phase up to a constant -/
lemma phase_slope_regions (theta : Theta) (h : theta.Physical) (T : Table) :
    let M := (theta.m1 + theta.m2) * gt
    (∃ dIN cL, ∀ x, fPhase1 theta < x → x < fPhase2 theta → deriv (fun f => Phase f theta T) (x / M) =
      1 / Spec.nu theta.m1 theta.m2 *
        (deriv (fun y => get_intermediate_raw_phase y theta T dIN (ringdown_phase_values theta T 0) cL) x * M)) ∧
    (∃ b, ∀ x, fPhase2 theta < x → x < 0.3 → deriv (fun f => Phase f theta T) (x / M) =
      1 / Spec.nu theta.m1 theta.m2 * ((deriv (fun y => (get_mergerringdown_raw_phase y theta T).1) x + b) * M)) := by
  intro M
  obtain ⟨-, ⟨a, b, -⟩, -, -, d, -⟩ := C92_regions_ordered theta h
  have hf1 : 0 < fPhase1 theta := by linarith
  have hMpos : 0 < M := by have := gt_pos; have := h.m1_pos; have := h.m2_pos; simp only [M]; positivity
  have eM : theta.m1 * gt + theta.m2 * gt = M := by simp only [M]; ring
  have hnu := etaOf_spec theta
  change theta.m1 * gt * (theta.m2 * gt) / (theta.m1 * gt + theta.m2 * gt) ^ 2 = _ at hnu
  rw [eM] at hnu
  set dIN := deriv (fun x => get_inspiral_phase x theta T) (fPhase1 theta) with hdIN
  set cL := -(dphase0 * ringdown_phase_coeffs theta T 4) with hcL
  have hzero : dIN - deriv (fun y => get_intermediate_raw_phase y theta T dIN (ringdown_phase_values theta T 0) cL)
      (fPhase1 theta) = 0 := by
    rw [(C64_physical theta h T dIN (ringdown_phase_values theta T 0) cL).2.1, sub_self]
  have hP : ∃ a0 b1 b0, (fun f => Phase f theta T) = fun f => 1 / Spec.nu theta.m1 theta.m2 *
      (fun x => get_inspiral_phase x theta T * Jnp.heaviside (fPhase1 theta - x) 0.5
      + Jnp.heaviside (x - fPhase1 theta) 0.5 * (get_intermediate_raw_phase x theta T dIN (ringdown_phase_values theta T 0) cL
        + 0 * x + a0) * Jnp.heaviside (fPhase2 theta - x) 0.5
      + ((get_mergerringdown_raw_phase x theta T).1 + b0 + b1 * x) * Jnp.heaviside (x - fPhase2 theta) 0.5 *
        Jnp.heaviside (fM_CUT - x) 0.5) (f * M) := by
    have e1 : ∀ y, (get_mergerringdown_raw_phase y theta T).2.1 = cL := fun _ => rfl
    have e2 : ∀ y, (get_mergerringdown_raw_phase y theta T).2.2 = ringdown_phase_values theta T 0 := fun _ => rfl
    unfold Phase
    simp only [f1_eq, f2_eq, eM, hnu, e1, e2, ← hdIN, hzero]
    exact ⟨_, _, _, rfl⟩
  obtain ⟨a0, b1, b0, hP⟩ := hP
  have key := glued_slope (I := fun x => get_inspiral_phase x theta T)
    (N := fun x => get_intermediate_raw_phase x theta T dIN (ringdown_phase_values theta T 0) cL)
    (R := fun x => (get_mergerringdown_raw_phase x theta T).1)
    (fun x hx => cd_int theta T _ _ _ hx) (fun x hx => cd_rd theta T hx) (fc := fM_CUT) hf1 b 0 a0 b1 b0
  refine ⟨⟨dIN, cL, fun x hx hx' => ?_⟩, ⟨b1, fun x hx hx' => ?_⟩⟩
  · rw [hP, hd_scaled hMpos.ne' (key.1 x hx hx'), add_zero]
  · rw [hP, hd_scaled hMpos.ne' (key.2 x hx hx')]

/-- the ringdown collocation interval is wide enough for its midpoint to lie beyond the second joint -/
lemma rd_mid {theta : Theta} (h : theta.Physical) :
    fPhase2 theta < (fIM theta + ((cut theta).fRD + 1.25 * (cut theta).fdamp)) / 2 ∧
    (cut theta).fRD + 1.25 * (cut theta).fdamp < 0.3 := by
  obtain ⟨s1, s2, s3⟩ := rd_shape h
  have hr := fRD_range h
  have hw := fdamp_range h
  have hm := meco_lo h
  have hi := isco_pos (spin_gt h).le (spin_lt h).le
  have hc : cut theta = ⟨fRDof (spinOf theta) (eradOf theta), fdampOf (spinOf theta) (eradOf theta),
      fMECOof (etaOf theta) (dOf theta) (chipnOf theta) (theta.chi1 - theta.chi2), fISCOof (spinOf theta)⟩ := cutoffs_eq theta
  unfold fPhase2 fIM
  rw [hc]
  simp only []
  generalize fRDof (spinOf theta) (eradOf theta) = r at *
  generalize fdampOf (spinOf theta) (eradOf theta) = w at *
  generalize fMECOof (etaOf theta) (dOf theta) (chipnOf theta) (theta.chi1 - theta.chi2) = X at *
  generalize fISCOof (spinOf theta) = I at *
  set H := r + 1.25 * w with hH
  set W := H - 0.6 * (r / 2 + I) with hWd
  have hHpos : 0 < H := by rw [hH]; norm_num at hr hw; linarith
  have hW : 1.25 * w < 0.427 * W := by
    have : 1.25 * w * H < 0.427 * W * H := by nlinarith
    exact lt_of_mul_lt_mul_right this hHpos.le
  norm_num at hr hw hm hi hW hH hWd ⊢
  exact ⟨by linarith, by linarith⟩

lemma exists_unique_mulVec {n : ℕ} {A : Matrix (Fin n) (Fin n) ℝ} (h : A.det ≠ 0) (v : Fin n → ℝ) :
    ∃! c : Fin n → ℝ, ∀ j, A.mulVec c j = v j := by
  refine ⟨Jnp.solve A v, fun j => congrFun (Jnp.solve_spec h v) j, fun c hc => ?_⟩
  have e : A.mulVec c = v := funext hc
  unfold Jnp.solve
  rw [← e, Matrix.mulVec_mulVec, Matrix.nonsing_inv_mul _ (isUnit_iff_ne_zero.2 h), Matrix.one_mulVec]

lemma sqrt2_half : 0 < 1 / (2 * Real.sqrt 2) ∧ 1 / (2 * Real.sqrt 2) < 1 / 2 := by
  refine ⟨by positivity, ?_⟩
  rw [div_lt_div_iff₀ (by positivity) (by norm_num)]
  have : (1 : ℝ) < Real.sqrt 2 := by
    rw [Real.lt_sqrt (by norm_num)]; norm_num
  linarith

lemma int_values (theta : Theta) (T : Table) (a b : ℝ) :
    intermediate_phase_values theta T a b 1 =
      0.75 * (phaseCV T 4 (etaOf theta) (stotOf theta) (theta.chi1 - theta.chi2) +
        phaseCV T 11 (etaOf theta) (stotOf theta) (theta.chi1 - theta.chi2)) +
      0.25 * phaseCV T 6 (etaOf theta) (stotOf theta) (theta.chi1 - theta.chi2) ∧
    intermediate_phase_values theta T a b 2 = phaseCV T 5 (etaOf theta) (stotOf theta) (theta.chi1 - theta.chi2) +
      phaseCV T 11 (etaOf theta) (stotOf theta) (theta.chi1 - theta.chi2) ∧
    intermediate_phase_values theta T a b 3 = phaseCV T 7 (etaOf theta) (stotOf theta) (theta.chi1 - theta.chi2) +
      (phaseCV T 5 (etaOf theta) (stotOf theta) (theta.chi1 - theta.chi2) +
      phaseCV T 11 (etaOf theta) (stotOf theta) (theta.chi1 - theta.chi2)) := ⟨rfl, rfl, rfl⟩

lemma rd_values (theta : Theta) (T : Table) :
    ringdown_phase_values theta T 2 = phaseCV T 10 (etaOf theta) (stotOf theta) (theta.chi1 - theta.chi2) +
      phaseCV T 11 (etaOf theta) (stotOf theta) (theta.chi1 - theta.chi2) ∧
    ringdown_phase_values theta T 3 = phaseCV T 11 (etaOf theta) (stotOf theta) (theta.chi1 - theta.chi2) ∧
    ringdown_phase_values theta T 4 = phaseCV T 12 (etaOf theta) (stotOf theta) (theta.chi1 - theta.chi2) +
      phaseCV T 11 (etaOf theta) (stotOf theta) (theta.chi1 - theta.chi2) := ⟨rfl, rfl, rfl⟩

lemma node_inside {a b s : ℝ} (hab : a < b) (hs : |s| ≤ 1) :
    a < (a + b) / 2 + s * (b - a) / (2 * Real.sqrt 2) ∧ (a + b) / 2 + s * (b - a) / (2 * Real.sqrt 2) < b := by
  obtain ⟨s1, s2⟩ := abs_le.1 hs
  obtain ⟨r1, r2⟩ := sqrt2_half
  have e : s * (b - a) / (2 * Real.sqrt 2) = s * (1 / (2 * Real.sqrt 2)) * (b - a) := by ring
  rw [e]
  have t1 : -(1 / 2) < s * (1 / (2 * Real.sqrt 2)) := by nlinarith
  have t2 : s * (1 / (2 * Real.sqrt 2)) < 1 / 2 := by nlinarith
  generalize s * (1 / (2 * Real.sqrt 2)) = q at *
  constructor <;> nlinarith

lemma ins_phase_det {theta : Theta} (h : theta.Physical) :
    (inspiral_phase_matrix (inspiral_phase_nodes theta)).det ≠ 0 := by
  obtain ⟨⟨a0, a1⟩, -⟩ := C92_regions_ordered theta h
  set w := 1.02 * (cut theta).fMECO - 0.0026 with hw
  have hwpos : 0 < w := by rw [hw]; linarith
  have hn : inspiral_phase_nodes theta = ![0 * w + 0.0026, 1 / 4 * w + 0.0026, 3 / 4 * w + 0.0026, 1 * w + 0.0026] := by
    have e : (1.020 : ℝ) = 1.02 := by norm_num
    unfold inspiral_phase_nodes
    simp only [hw, cut, e]
    rfl
  have hmono : StrictMono (inspiral_phase_nodes theta) := by
    rw [Fin.strictMono_iff_lt_succ, hn]
    intro i
    fin_cases i
    · change 0 * w + 0.0026 < 1 / 4 * w + 0.0026
      linarith
    · change 1 / 4 * w + 0.0026 < 3 / 4 * w + 0.0026
      linarith
    · change 3 / 4 * w + 0.0026 < 1 * w + 0.0026
      linarith
  refine ins_det (fun i => ?_) hmono.injective
  refine lt_of_lt_of_le ?_ (hmono.monotone (Fin.zero_le i))
  rw [hn]
  change (0 : ℝ) < 0 * w + 0.0026
  norm_num

lemma int_nodes (theta : Theta) : intermediate_phase_nodes theta =
    ![0 * (fPhase2 theta - fPhase1 theta) + fPhase1 theta,
      (1 / 2 - 1 / (2 * Real.sqrt 2)) * (fPhase2 theta - fPhase1 theta) + fPhase1 theta,
      1 / 2 * (fPhase2 theta - fPhase1 theta) + fPhase1 theta,
      (1 / 2 + 1 / (2 * Real.sqrt 2)) * (fPhase2 theta - fPhase1 theta) + fPhase1 theta,
      1 * (fPhase2 theta - fPhase1 theta) + fPhase1 theta] := by
  unfold intermediate_phase_nodes
  simp only [f1_eq, f2_eq]
  rfl

lemma int_phase_det {theta : Theta} (h : theta.Physical) :
    (intermediate_phase_matrix (intermediate_phase_nodes theta) (cut theta).fRD).det ≠ 0 := by
  obtain ⟨-, ⟨b0, b1, -⟩, -⟩ := C92_regions_ordered theta h
  have hR : 0.045 < (cut theta).fRD := by
    rw [show (cut theta).fRD = fRDof (spinOf theta) (eradOf theta) from congrArg Cutoffs.fRD (cutoffs_eq theta)]
    exact (fRD_range h).1
  have hn := int_nodes theta
  obtain ⟨r1, r2⟩ := sqrt2_half
  generalize 1 / (2 * Real.sqrt 2) = r at *
  set w := fPhase2 theta - fPhase1 theta with hw
  have hwpos : 0 < w := by linarith
  have hmono : StrictMono (intermediate_phase_nodes theta) := by
    rw [Fin.strictMono_iff_lt_succ, hn]
    intro i
    fin_cases i
    · change 0 * w + fPhase1 theta < (1 / 2 - r) * w + fPhase1 theta
      nlinarith
    · change (1 / 2 - r) * w + fPhase1 theta < 1 / 2 * w + fPhase1 theta
      nlinarith
    · change 1 / 2 * w + fPhase1 theta < (1 / 2 + r) * w + fPhase1 theta
      nlinarith
    · change (1 / 2 + r) * w + fPhase1 theta < 1 * w + fPhase1 theta
      nlinarith
  refine int_det (by norm_num at hR; linarith) (fun i => ?_) hmono.injective
  refine (lt_of_lt_of_le ?_ (hmono.monotone (Fin.zero_le i))).ne'
  rw [hn]
  change 0 < 0 * w + fPhase1 theta
  norm_num at b0
  linarith

/-- the ringdown collocation matrix without the factor `-dphase0` in the last column -/
lemma rd_det_scaled {theta : Theta} (h : theta.Physical) :
    (Matrix.of fun i : Fin 5 => ![1, ringdown_phase_nodes theta i ^ (-((1 : ℝ) / 3)), 1 / ringdown_phase_nodes theta i ^ 2,
      1 / ringdown_phase_nodes theta i ^ 4,
      1 / ((cut theta).fdamp ^ 2 + (ringdown_phase_nodes theta i - (cut theta).fRD) ^ 2)]).det ≠ 0 := by
  intro h0
  apply rd_det h
  have e : ringdown_phase_matrix (ringdown_phase_nodes theta) (cut theta).fRD (cut theta).fdamp =
      (Matrix.of fun i : Fin 5 => ![1, ringdown_phase_nodes theta i ^ (-((1 : ℝ) / 3)), 1 / ringdown_phase_nodes theta i ^ 2,
      1 / ringdown_phase_nodes theta i ^ 4,
      1 / ((cut theta).fdamp ^ 2 + (ringdown_phase_nodes theta i - (cut theta).fRD) ^ 2)]) *
      Matrix.diagonal ![1, 1, 1, 1, -dphase0] := by
    ext i j
    rw [Matrix.mul_diagonal]
    generalize ringdown_phase_nodes theta = CP
    generalize (cut theta).fRD = r
    generalize (cut theta).fdamp = w
    have z2 : ∀ y : ℝ, y ^ (-2 : ℤ) = 1 / y ^ 2 := fun y => by
      rw [zpow_neg, one_div]; rfl
    have z4 : ∀ y : ℝ, y ^ (-4 : ℤ) = 1 / y ^ 4 := fun y => by
      rw [zpow_neg, one_div]; rfl
    fin_cases i <;> fin_cases j <;>
      simp [ringdown_phase_matrix, z2, z4] <;> ring
  rw [e, Matrix.det_mul, h0, zero_mul]

end XAS
end Ripple

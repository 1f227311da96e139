/-
  Properties C63 and C64 (amplitude part): the IMRPhenomXAS amplitude. Everything is for an arbitrary table `A`.
-/
import Verif.Proofs.XASAmp

namespace Ripple
open Set XAS

/-- The amplitude is a C¹ function of frequency for 0 < f M < 0.3, across both transition frequencies, whenever the
    transition frequencies are positive and ordered, the amplitude does not vanish at them, and the connection polynomial
    (the reciprocal of the intermediate amplitude) has no zero between them. -/
theorem C63_amplitude_C1 (theta : Theta) (h1 : 0 < theta.m1) (h2 : 0 < theta.m2) (A : Table) (D : ℝ) (_hD : 0 < D)
    (hw : (get_cutoff_fMs theta.m1 theta.m2 theta.chi1 theta.chi2).fdamp * (ringdown_Amp_fits theta A).2.1 ≠ 0)
    (hF1 : 0 < ampMatchIN theta) (hF : ampMatchIN theta < ampPeak theta A)
    (hI : get_inspiral_Amp (ampMatchIN theta) theta A ≠ 0) (hv : (ringdown_Amp_fits theta A).2.2 ≠ 0)
    (hP : ∀ x, ampMatchIN theta ≤ x → x ≤ ampPeak theta A →
      quartic (intermediate_Amp_coeffs theta A (ampPeak theta A)) x ≠ 0) :
    ContDiffOn ℝ 1 (fun f => Amp f theta A D) (Ioo 0 (0.3 / ((theta.m1 + theta.m2) * gt))) := by
  have hM : 0 < PhenomD.Ms theta := by have := gt_pos; unfold PhenomD.Ms; positivity
  rw [PhenomD.Ms_eq]
  simp only [Amp_eq]
  set F1 := ampMatchIN theta with hF1def
  set F4 := ampPeak theta A with hF4def
  set F2 := F1 + 1 / 2 * (F4 - F1) with hF2def
  have hF4 : 0 < F4 := hF1.trans hF
  have n12 : F1 ≠ F2 := by intro h; rw [hF2def] at h; linarith
  have n14 : F1 ≠ F4 := hF.ne
  have n24 : F2 ≠ F4 := by intro h; rw [hF2def] at h; linarith
  have hrd : (get_mergerringdown_Amp F4 theta A).1 ≠ 0 := by rw [hF4def, rd_Amp_peak theta A hw]; exact hv
  have cq : ∀ x, DifferentiableAt ℝ (quartic (intermediate_Amp_coeffs theta A F4)) x :=
    fun x => (quartic_hasDeriv _ x).differentiableAt
  have m1 := quot_match (P := quartic (intermediate_Amp_coeffs theta A F4)) (g := fun x => get_inspiral_Amp x theta A) hF1
    (cq F1) hI (q_value1 _ _ _ _ _ n12 n14 n24) (q_slope1 _ _ _ _ _ n12 n14 n24)
  have m4 := quot_match (P := quartic (intermediate_Amp_coeffs theta A F4))
    (g := fun x => (get_mergerringdown_Amp x theta A).1) hF4
    (cq F4) hrd (q_value4 _ _ _ _ _ n12 n14 n24) (q_slope4 _ _ _ _ _ n12 n14 n24)
  have key := contDiffOn_three_local (s := Ioo 0 0.3) hF (p0 := fun x => get_inspiral_Amp x theta A)
    (p1 := fun x => get_intermediate_Amp x theta A F4) (p2 := fun x => (get_mergerringdown_Amp x theta A).1)
    (fun x hx _ => cd_ins_Amp theta A hx.1)
    (fun x hx ha hb => by
      simp only [int_Amp_eq]
      refine ContDiffAt.div (PhenomD.cd_rpow hx.1 _) ?_ (hP x ha hb)
      unfold quartic
      fun_prop)
    (fun x _ _ => cd_rd_Amp theta A hw x) m1.1.symm m1.2.symm m4.1 m4.2
  have hpow : ContDiffOn ℝ 1 (fun x : ℝ => x ^ (-((7 : ℝ) / 6))) (Ioo 0 0.3) :=
    fun x hx => (PhenomD.cd_rpow hx.1 _).contDiffWithinAt
  have hall := ((contDiffOn_const (c := ampUnit theta D)).mul key).mul hpow
  have hmaps : MapsTo (fun f : ℝ => f * PhenomD.Ms theta) (Ioo 0 (0.3 / PhenomD.Ms theta)) (Ioo 0 0.3) := by
    intro f hf
    exact ⟨mul_pos hf.1 hM, (lt_div_iff₀ hM).1 hf.2⟩
  have hcomp := hall.comp (s := Ioo 0 (0.3 / PhenomD.Ms theta)) (f := fun f : ℝ => f * PhenomD.Ms theta) (by fun_prop) hmaps
  refine hcomp.congr fun f hf => ?_
  have := (hmaps hf).2
  simp only [Function.comp]
  rw [Jnp.heaviside_pos (x := 0.3 - f * PhenomD.Ms theta) (by linarith)]
  ring

/-! ### C64, amplitude part -/

/-- The connection polynomial takes the prescribed values at all three nodes and the prescribed slopes at both ends,
    for all distinct nodes and all data. -/
theorem C64_amp_polynomial (F1 F2 F4 V1 V2 V4 d1 d4 : ℝ) (h12 : F1 ≠ F2) (h14 : F1 ≠ F4) (h24 : F2 ≠ F4) :
    ∃ P : ℝ → ℝ, (∃ c0 c1 c2 c3 c4 : ℝ, intermediate_Amp_delta F1 F2 F4 V1 V2 V4 d1 d4 = ![c0, c1, c2, c3, c4] ∧
        ∀ x, P x = c0 + c1 * x + c2 * x ^ 2 + c3 * x ^ 3 + c4 * x ^ 4) ∧
      P F1 = V1 ∧ P F2 = V2 ∧ P F4 = V4 ∧ deriv P F1 = d1 ∧ deriv P F4 = d4 := by
  refine ⟨quartic (intermediate_Amp_delta F1 F2 F4 V1 V2 V4 d1 d4), ⟨_, _, _, _, _, rfl, fun x => ?_⟩,
    q_value1 _ _ _ _ _ h12 h14 h24, q_value2 _ _ _ _ _ h12 h14 h24, q_value4 _ _ _ _ _ h12 h14 h24,
    q_slope1 _ _ _ _ _ h12 h14 h24, q_slope4 _ _ _ _ _ h12 h14 h24⟩
  unfold quartic intermediate_Amp_delta
  simp
  ring

/-- Midway between the two transition frequencies the intermediate amplitude equals f^(7/6) times the fitted value. -/
theorem C64_amp_midpoint (theta : Theta) (A : Table) (F4 : ℝ) (h : ampMatchIN theta ≠ F4) :
    let Fm := (ampMatchIN theta + F4) / 2
    let eta := theta.m1 * gt * (theta.m2 * gt) / (theta.m1 * gt + theta.m2 * gt) ^ 2
    let d := Real.sqrt (1 - 4 * eta)
    get_intermediate_Amp Fm theta A F4 = Fm ^ ((7 : ℝ) / 6) *
      ampCV A 3 eta (((1 + d) ^ 2 * theta.chi1 + (1 - d) ^ 2 * theta.chi2) / ((1 + d) ^ 2 + (1 - d) ^ 2))
        (theta.chi1 - theta.chi2) := by
  intro Fm eta d
  have e : ampMatchIN theta + 1 / 2 * (F4 - ampMatchIN theta) = Fm := by simp only [Fm]; ring
  have n12 : ampMatchIN theta ≠ Fm := by intro h'; apply h; simp only [Fm] at h'; linarith
  have n24 : Fm ≠ F4 := by intro h'; apply h; simp only [Fm] at h'; linarith
  rw [int_Amp_eq]
  unfold intermediate_Amp_coeffs
  simp only [e]
  rw [q_value2 _ _ _ _ _ n12 h n24]
  rw [one_div, div_inv_eq_mul]
  congr 1
  have hS : ((0.5 * (1 + d)) ^ 2 * theta.chi1 + (0.5 * (1 - d)) ^ 2 * theta.chi2) /
      ((0.5 * (1 + d)) ^ 2 + (0.5 * (1 - d)) ^ 2) =
      ((1 + d) ^ 2 * theta.chi1 + (1 - d) ^ 2 * theta.chi2) / ((1 + d) ^ 2 + (1 - d) ^ 2) := by
    have e1 : (0.5 * (1 + d)) ^ 2 * theta.chi1 + (0.5 * (1 - d)) ^ 2 * theta.chi2 =
        0.25 * ((1 + d) ^ 2 * theta.chi1 + (1 - d) ^ 2 * theta.chi2) := by ring
    have e2 : (0.5 * (1 + d)) ^ 2 + (0.5 * (1 - d)) ^ 2 = 0.25 * ((1 + d) ^ 2 + (1 - d) ^ 2) := by ring
    rw [e1, e2, mul_div_mul_left _ _ (by norm_num)]
  change ampCV A 3 eta _ _ = _
  rw [← hS]

/-- The inspiral amplitude minus its post-Newtonian part takes the three fitted values at one half, three quarters and
    all of the end of the inspiral region. -/
theorem C64_amp_inspiral (theta : Theta) (A : Table) (hF : 0 < ampMatchIN theta) (i : Fin 3) :
    let x := ![1 / 2 * ampMatchIN theta, 3 / 4 * ampMatchIN theta, ampMatchIN theta] i
    let p := inspiral_Amp_PN theta
    get_inspiral_Amp x theta A - (p.A0 + p.A2 * x ^ ((2 : ℝ) / 3) + p.A3 * x + p.A4 * x ^ ((4 : ℝ) / 3) +
      p.A5 * x ^ ((5 : ℝ) / 3) + p.A6 * x ^ 2) = inspiral_Amp_values theta A i := by
  intro x p
  have hx : x = inspiral_Amp_nodes theta i := by
    simp only [x]
    unfold inspiral_Amp_nodes
    fin_cases i <;> simp <;> norm_num
  have hpos : ∀ i, 0 < inspiral_Amp_nodes theta i := by
    intro i
    unfold inspiral_Amp_nodes
    fin_cases i <;> simp <;> linarith
  have hmono : StrictMono (inspiral_Amp_nodes theta) := by
    rw [Fin.strictMono_iff_lt_succ]
    intro i
    unfold inspiral_Amp_nodes
    fin_cases i <;> simp <;> linarith
  rw [← rho_colloc (inspiral_Amp_values theta A) hpos hmono.injective i, ← hx]
  unfold get_inspiral_Amp
  simp only [p]
  ring

/-- The ringdown amplitude takes the fitted value v1RD at the start of the ringdown region. -/
theorem C64_amp_ringdown (theta : Theta) (A : Table)
    (h : (get_cutoff_fMs theta.m1 theta.m2 theta.chi1 theta.chi2).fdamp * (ringdown_Amp_fits theta A).2.1 ≠ 0) (x : ℝ) :
    (get_mergerringdown_Amp (get_mergerringdown_Amp x theta A).2 theta A).1 = (ringdown_Amp_fits theta A).2.2 :=
  rd_Amp_peak theta A h

/-- That point is the maximum of the ringdown amplitude over all frequencies from the trough `fRD - w (1+s)/γ2` on
    (w = fdamp γ3 is the width, s = √(1-γ2²)) when γ2 ≤ 1: the amplitude increases up to it, decreases beyond, and is
    stationary there. -/
theorem C64_amp_peak (theta : Theta) (A : Table)
    (hw : 0 < (get_cutoff_fMs theta.m1 theta.m2 theta.chi1 theta.chi2).fdamp * (ringdown_Amp_fits theta A).2.1)
    (hg : 0 < (ringdown_Amp_fits theta A).1) (hg1 : (ringdown_Amp_fits theta A).1 ≤ 1)
    (hv : 0 < (ringdown_Amp_fits theta A).2.2)
    (hpos : 0 ≤ (get_cutoff_fMs theta.m1 theta.m2 theta.chi1 theta.chi2).fRD +
      (get_cutoff_fMs theta.m1 theta.m2 theta.chi1 theta.chi2).fdamp * (ringdown_Amp_fits theta A).2.1 *
        (Real.sqrt (1 - (ringdown_Amp_fits theta A).1 ^ 2) - 1) / (ringdown_Amp_fits theta A).1) (x0 : ℝ) :
    let R := fun x => (get_mergerringdown_Amp x theta A).1
    let Fp := (get_mergerringdown_Amp x0 theta A).2
    let g2 := (ringdown_Amp_fits theta A).1
    let w := (get_cutoff_fMs theta.m1 theta.m2 theta.chi1 theta.chi2).fdamp * (ringdown_Amp_fits theta A).2.1
    let fRD := (get_cutoff_fMs theta.m1 theta.m2 theta.chi1 theta.chi2).fRD
    Fp ≤ fRD ∧ deriv R Fp = 0 ∧ StrictMonoOn R (Icc (fRD - w * (1 + Real.sqrt (1 - g2 ^ 2)) / g2) Fp) ∧ StrictAntiOn R (Ici Fp) := by
  intro R Fp g2 w fRD
  set s := Real.sqrt (1 - g2 ^ 2) with hs
  have hs2 : s ^ 2 = 1 - g2 ^ 2 := Real.sq_sqrt (by nlinarith)
  have hs0 : 0 ≤ s := Real.sqrt_nonneg _
  have hs1 : s ≤ 1 := by nlinarith
  have hFp : Fp = fRD + w * (-1 + s) / g2 := by
    have : Fp = ampPeak theta A := rfl
    rw [this]
    unfold ampPeak ampRDMin
    rw [if_pos hg1]
    have e : Real.sqrt (1 - (ringdown_Amp_fits theta A).1 * (ringdown_Amp_fits theta A).1) = s := by
      rw [hs]; congr 1; simp only [g2]; ring
    rw [e, abs_of_nonneg]
    · simp only [w, g2, fRD]; ring
    · exact hpos
  set K := (ringdown_Amp_fits theta A).2.2 / w * ((ampPeak theta A - fRD) ^ 2 + w ^ 2) *
        Real.exp ((ampPeak theta A - fRD) * g2 / w) with hK
  have hw' : 0 < w := hw
  have hKpos : 0 < K := by
    have : 0 < (ampPeak theta A - fRD) ^ 2 + w ^ 2 := by positivity
    positivity
  have hR : ∀ x, R x = PhenomD.lor K g2 w (x - fRD) := fun x => rd_Amp_eq x theta A
  have hgpos : 0 < g2 := hg
  refine ⟨?_, ?_, ?_, ?_⟩
  · rw [hFp]
    have : w * (-1 + s) / g2 ≤ 0 := div_nonpos_of_nonpos_of_nonneg (by nlinarith) hgpos.le
    linarith
  · have hd := (PhenomD.lor_deriv (g1 := K) (g2 := g2) hw' (Fp - fRD)).comp Fp ((hasDerivAt_id Fp).sub_const fRD)
    have e : R = PhenomD.lor K g2 w ∘ fun x => id x - fRD := by funext x; exact hR x
    rw [e, hd.deriv, PhenomD.quad_factor hgpos hs2, hFp]
    ring
  · have key : StrictMonoOn (PhenomD.lor K g2 w) (Icc (-(w * (1 + s) / g2)) (w * (-1 + s) / g2)) := by
      refine PhenomD.lor_mono_on hKpos hw' (convex_Icc _ _) fun u hu => ?_
      rw [interior_Icc] at hu
      rw [PhenomD.quad_factor hgpos hs2]
      have a : u - w * (-1 + s) / g2 < 0 := by linarith [hu.2]
      have b : 0 < u + w * (1 + s) / g2 := by linarith [hu.1]
      have := mul_neg_of_pos_of_neg hgpos a
      exact mul_neg_of_neg_of_pos this b
    intro x hx y hy hxy
    rw [hR, hR]
    refine key ⟨by linarith [hx.1], ?_⟩ ⟨by linarith [hy.1], ?_⟩ (by linarith)
    · have := hx.2; rw [hFp] at this; linarith
    · have := hy.2; rw [hFp] at this; linarith
  · have key : StrictAntiOn (PhenomD.lor K g2 w) (Ici (w * (-1 + s) / g2)) := by
      refine PhenomD.lor_anti_on hKpos hw' (convex_Ici _) fun u hu => ?_
      rw [interior_Ici] at hu
      rw [PhenomD.quad_factor hgpos hs2]
      have a : 0 < u - w * (-1 + s) / g2 := by linarith [Set.mem_Ioi.1 hu]
      have b : 0 < u + w * (1 + s) / g2 := by
        have : 0 < w * s / g2 + w * s / g2 + (u - w * (-1 + s) / g2) := by
          have : 0 ≤ w * s / g2 := by positivity
          linarith
        have e : w * s / g2 + w * s / g2 + (u - w * (-1 + s) / g2) = u + w * (1 + s) / g2 := by ring
        linarith
      positivity
    intro x hx y hy hxy
    rw [hR, hR]
    refine key ?_ ?_ (by linarith)
    · have := Set.mem_Ici.1 hx; rw [hFp] at this; rw [Set.mem_Ici]; linarith
    · have := Set.mem_Ici.1 hy; rw [hFp] at this; rw [Set.mem_Ici]; linarith

/-- For γ2 ≥ 1 (the other branch of the code) there is no peak: the ringdown amplitude decreases everywhere, in
    particular beyond the point used by the code. -/
theorem C64_amp_no_peak (theta : Theta) (A : Table)
    (hw : 0 < (get_cutoff_fMs theta.m1 theta.m2 theta.chi1 theta.chi2).fdamp * (ringdown_Amp_fits theta A).2.1)
    (hg : 1 ≤ (ringdown_Amp_fits theta A).1) (hv : 0 < (ringdown_Amp_fits theta A).2.2) :
    StrictAnti fun x => (get_mergerringdown_Amp x theta A).1 := by
  intro x y hxy
  simp only [rd_Amp_eq]
  refine PhenomD.lor_anti ?_ hw hg (by linarith)
  have : 0 < (ampPeak theta A - (get_cutoff_fMs theta.m1 theta.m2 theta.chi1 theta.chi2).fRD) ^ 2 +
    ((get_cutoff_fMs theta.m1 theta.m2 theta.chi1 theta.chi2).fdamp * (ringdown_Amp_fits theta A).2.1) ^ 2 := by positivity
  positivity

/-- witness for the interpolation data: distinct nodes -/
example : (0.02 : ℝ) ≠ 0.05 ∧ (0.02 : ℝ) ≠ 0.08 ∧ (0.05 : ℝ) ≠ 0.08 := by norm_num

end Ripple

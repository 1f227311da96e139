/-
  Properties C97 (the ringdown fits of IMRPhenomXAS reproduce the tables of PhenomD) and C98 (the two families agree on the
  remnant).
-/
import Verif.Proofs.QNMFit
import Verif.Proofs.RemnantCompare
import Verif.Props.QNM
import Verif.Props.XASPhys

namespace Ripple
open PhenomD QNMData Set

/-! ### C97: fits against tables -/

/-- The ringdown and damping frequencies of IMRPhenomXAS for a remnant of spin `v` and mass 1 (no radiated energy) agree with the
    not-a-knot splines through the 1003 points shipped with PhenomD: to 1.32e-5 below spin 0.95, to 5.3e-5 below 0.99 and to
    0.0081 everywhere (ringdown); to 2.1e-5 below 0.99 and to 0.002 everywhere (damping). -/
theorem C97_splines : ∃ R D : ℝ → ℝ, NotAKnotSpline knots valRD R ∧ NotAKnotSpline knots valdamp D ∧
    ∀ v, -1 ≤ v → v ≤ 1 →
      (|XAS.fRDof v 0 - R v| ≤ 0.0081 ∧ (v < 0.95 → |XAS.fRDof v 0 - R v| ≤ 1.32e-5) ∧
        (v < 0.99 → |XAS.fRDof v 0 - R v| ≤ 5.3e-5)) ∧
      (|XAS.fdampOf v 0 - D v| ≤ 0.002 ∧ (v < 0.99 → |XAS.fdampOf v 0 - D v| ≤ 2.1e-5)) := by
  refine ⟨_, _, notAKnot valRD, notAKnot valdamp, fun v h1 h2 => ?_⟩
  simp only [abs_sub_comm (XAS.fRDof v 0), abs_sub_comm (XAS.fdampOf v 0)]
  exact ⟨QNMFit.RD_fit h1 h2, QNMFit.damp_fit h1 h2⟩

/-- Hence a lookup in the tables of PhenomD and the fits of IMRPhenomXAS differ by less than 1e-4 below spin 0.99. -/
theorem C97_lookup {eps : ℝ} (he : 0 ≤ eps) (he' : eps < 4e-6) (v : ℝ) (h1 : -1 ≤ v) (h2 : v < 0.99) :
    |Jnp.interp eps v (qnmTable eps).a (qnmTable eps).fRD - XAS.fRDof v 0| ≤ 1e-4 ∧
    (v < 0.95 → |Jnp.interp eps v (qnmTable eps).a (qnmTable eps).fRD - XAS.fRDof v 0| ≤ 5.4e-5) ∧
    |Jnp.interp eps v (qnmTable eps).a (qnmTable eps).fdamp - XAS.fdampOf v 0| ≤ 6.1e-5 := by
  have h2' : v ≤ 1 := by linarith
  have l1 := lookup_close he he' (fun a b c => splineRD_lip a b c) h1 h2'
  have l2 := lookup_close he he' (fun a b c => splinedamp_lip a b c) h1 h2'
  rw [← table_RD eps, ← table_a eps] at l1
  rw [← table_damp eps, ← table_a eps] at l2
  obtain ⟨-, f1, f2⟩ := QNMFit.RD_fit h1 h2'
  obtain ⟨-, f3⟩ := QNMFit.damp_fit h1 h2'
  refine ⟨?_, fun h => ?_, ?_⟩
  · have := abs_sub_le (Jnp.interp eps v (qnmTable eps).a (qnmTable eps).fRD) (Scipy.CubicSpline knots valRD v) (XAS.fRDof v 0)
    have := f2 h2
    linarith
  · have := abs_sub_le (Jnp.interp eps v (qnmTable eps).a (qnmTable eps).fRD) (Scipy.CubicSpline knots valRD v) (XAS.fRDof v 0)
    have := f1 h
    linarith
  · have := abs_sub_le (Jnp.interp eps v (qnmTable eps).a (qnmTable eps).fdamp) (Scipy.CubicSpline knots valdamp v)
      (XAS.fdampOf v 0)
    have := f3 h2
    linarith

/-- witness: the remnant spin of GW150914 -/
example : (0 : ℝ) ≤ 1.2e-7 ∧ (1.2e-7 : ℝ) < 4e-6 ∧ (-1 : ℝ) ≤ 0.69 ∧ (0.69 : ℝ) < 0.95 := by norm_num

/-! ### C98: the remnant of the same binary in the two families -/

lemma etas_eq (theta : Theta) : XAS.etaOf theta = etaOf theta := XAS.etaOf_spec theta

/-- total spin, heavier body first -/
lemma spins_eq {theta : Theta} (h : theta.Physical) (hm : theta.m2 ≤ theta.m1) :
    spinOf theta = XAS.stotOf theta * (1 - 2 * XAS.etaOf theta) := by
  obtain ⟨e1, e2, -⟩ := XAS.dOf_spec h
  have h1 := h.m1_pos
  have h2 := h.m2_pos
  unfold XAS.stotOf
  rw [e1, e2, XAS.etaOf_spec]
  unfold spinOf Spec.muH Spec.muL Spec.nu
  rw [max_eq_left hm, min_eq_right hm]
  have : 0 < theta.m1 ^ 2 + theta.m2 ^ 2 := by positivity
  field_simp
  ring

/-- spin and radiated energy of the remnant in IMRPhenomXAS minus those in PhenomD -/
lemma remnants_close {theta : Theta} (h : theta.Physical) (hm : theta.m2 ≤ theta.m1) :
    let da := XAS.spinOf theta - FinalSpin0815_s (etaOf theta) (spinOf theta)
    let dE := XAS.eradOf theta - EradRational0815 (etaOf theta) theta.chi1 theta.chi2
    (|da| ≤ 0.07 ∧ |dE| ≤ 0.023) ∧ (theta.chi1 = theta.chi2 → |da| ≤ 0.02 ∧ |dE| ≤ 0.018) ∧
    (theta.chi1 = 0 → theta.chi2 = 0 → |da| ≤ 0.0005 ∧ |dE| ≤ 0.00005) := by
  intro da dE
  obtain ⟨d0, d1, hd⟩ := XAS.dOf_range h
  have e0 := (XAS.etaOf_range h).1
  have hS := XAS.stotOf_range h
  have hb := XAS.eta_box h
  have hx := XAS.dchi_range h
  have hT := spins_eq h hm
  have eda : da = XAS.etaOf theta * (XAS.sK (XAS.etaOf theta) + XAS.stotOf theta * (XAS.sn1 (XAS.etaOf theta) +
      XAS.stotOf theta * (XAS.sn2 (XAS.etaOf theta) + XAS.stotOf theta * XAS.sn3 (XAS.etaOf theta))) /
      (1 + XAS.skk (XAS.etaOf theta) * XAS.stotOf theta) - spinR (XAS.etaOf theta) (spinOf theta)) +
      XAS.etaOf theta * ((theta.chi1 - theta.chi2) * XAS.dOf theta * (XAS.etaOf theta * XAS.sD (XAS.etaOf theta) (XAS.stotOf theta))
        - 0.059808322561702126 * (theta.chi1 - theta.chi2) ^ 2 * XAS.etaOf theta ^ 2) := by
    show XAS.spinOf theta - FinalSpin0815_s (etaOf theta) (spinOf theta) = _
    rw [← etas_eq, XAS.spinOf_eq h, finalSpin_eq e0.ne']
    unfold XAS.spinG
    rw [hT]
    ring
  have eE : EradRational0815 (etaOf theta) theta.chi1 theta.chi2 = XAS.etaOf theta * eradD (XAS.etaOf theta) (XAS.stotOf theta) := by
    rw [← eradD_eq, ← etas_eq]
    unfold EradRational0815 XAS.stotOf XAS.dOf
    simp only [pow_two]
  have edE : dE = XAS.etaOf theta * (eradX (XAS.etaOf theta) (XAS.stotOf theta) - eradD (XAS.etaOf theta) (XAS.stotOf theta)) +
      XAS.etaOf theta * ((theta.chi1 - theta.chi2) * XAS.dOf theta * (-0.09803730445895877 * (1 - 3.2283713377939134 * XAS.etaOf theta)
        * XAS.etaOf theta - 0.01978238971523653 * (1 - 4.91667749015812 * XAS.etaOf theta) * XAS.stotOf theta)
        + 0.01118530335431078 * (theta.chi1 - theta.chi2) ^ 2 * XAS.etaOf theta ^ 2) := by
    show XAS.eradOf theta - EradRational0815 (etaOf theta) theta.chi1 theta.chi2 = _
    rw [eE]
    unfold XAS.eradOf
    rw [XAS.eRad_eq, eradG_eq]
    ring
  have he : XAS.etaOf theta = (1 - XAS.dOf theta) * (1 + XAS.dOf theta) / 4 := by rw [hd]; ring
  have hdb : 0 ≤ XAS.dOf theta ∧ XAS.dOf theta ≤ 1 := ⟨d0, d1.le⟩
  have s1 := dSpin_hi _ _ _ hb hS hT
  have s2 := dSpin_lo _ _ _ hb hS hT
  have s3 := uSpin_hi _ _ _ _ hdb hx hS he
  have s4 := uSpin_lo _ _ _ _ hdb hx hS he
  have s5 := dErad_hi _ _ hb hS
  have s6 := dErad_lo _ _ hb hS
  have s7 := uErad_hi _ _ _ _ hdb hx hS he
  have s8 := uErad_lo _ _ _ _ hdb hx hS he
  refine ⟨⟨?_, ?_⟩, fun hc => ⟨?_, ?_⟩, fun hc1 hc2 => ?_⟩
  · rw [abs_le, eda]; constructor <;> linarith
  · rw [abs_le, edE]; constructor <;> linarith
  · rw [abs_le, eda, sub_eq_zero.2 hc]; constructor <;> norm_num <;> linarith
  · rw [abs_le, edE, sub_eq_zero.2 hc]; constructor <;> norm_num <;> linarith
  · have hS0 : XAS.stotOf theta = 0 := by unfold XAS.stotOf; rw [hc1, hc2]; simp
    have hT0 : spinOf theta = 0 := by rw [hT, hS0, zero_mul]
    have t1 := dSpin0_hi _ hb
    have t2 := dSpin0_lo _ hb
    have t3 := dErad0_hi _ hb
    have t4 := dErad0_lo _ hb
    constructor
    · rw [abs_le, eda, hS0, hT0, hc1, hc2]; constructor <;> norm_num <;> linarith
    · rw [abs_le, edE, hS0, hc1, hc2]; constructor <;> norm_num <;> linarith

/-- For every binary with the heavier body first and spin magnitudes at most one, the remnant spins of the two families differ
    by at most 0.07 and the radiated mass fractions by at most 0.023; by 0.02 and 0.018 for equal spins; by 0.0005 and 0.00005
    without spins. -/
theorem C98_remnants (m1 m2 chi1 chi2 : ℝ) (h2 : 0 < m2) (hm : m2 ≤ m1) (hc1 : |chi1| ≤ 1) (hc2 : |chi2| ≤ 1) :
    let nu := m1 * m2 / (m1 + m2) ^ 2
    let X1 := m1 / (m1 + m2)
    let X2 := m2 / (m1 + m2)
    let s := (X1 ^ 2 * chi1 + X2 ^ 2 * chi2) / (X1 ^ 2 + X2 ^ 2)
    let da := XAS.finalSpin nu (X1 - X2) X1 X2 s (chi1 - chi2) - FinalSpin0815_s nu (X1 ^ 2 * chi1 + X2 ^ 2 * chi2)
    let dE := XAS.eRad nu (X1 - X2) s (chi1 - chi2) - EradRational0815 nu chi1 chi2
    (|da| ≤ 0.07 ∧ |dE| ≤ 0.023) ∧ (chi1 = chi2 → |da| ≤ 0.02 ∧ |dE| ≤ 0.018) ∧
    (chi1 = 0 → chi2 = 0 → |da| ≤ 0.0005 ∧ |dE| ≤ 0.00005) := by
  have h : (⟨m1, m2, chi1, chi2⟩ : Theta).Physical := ⟨by linarith, h2, hc1, hc2⟩
  have key := remnants_close h hm
  obtain ⟨e1, e2, e3⟩ := XAS.dOf_spec h
  have e4 := XAS.etaOf_spec ⟨m1, m2, chi1, chi2⟩
  have f1 : Spec.muH m1 m2 = m1 / (m1 + m2) := by unfold Spec.muH; rw [max_eq_left hm]
  have f2 : Spec.muL m1 m2 = m2 / (m1 + m2) := by unfold Spec.muL; rw [min_eq_right hm]
  simp only [f1, f2] at e1 e2 e3
  have e5 : spinOf ⟨m1, m2, chi1, chi2⟩ = (m1 / (m1 + m2)) ^ 2 * chi1 + (m2 / (m1 + m2)) ^ 2 * chi2 := by
    unfold spinOf; simp only []; field_simp
  unfold XAS.spinOf XAS.eradOf XAS.stotOf at key
  rw [e1, e2, e3, e4, e5] at key
  exact key

/-- witness: unequal masses, opposite spins -/
example : (0 : ℝ) < 1.4 ∧ (1.4 : ℝ) ≤ 30 ∧ |(0.95 : ℝ)| ≤ 1 ∧ |(-0.7 : ℝ)| ≤ 1 := by norm_num [abs_le]

lemma div_close {x y E F : ℝ} (hE : E < 0.12) (hF : F < 0.121) (hx0 : 0 ≤ x) (hx : x ≤ 0.16) {r s : ℝ} (h : |x - y| ≤ r)
    (hs : |E - F| ≤ s) : |x / (1 - E) - y / (1 - F)| ≤ r / 0.879 + 0.16 * s / 0.879 ^ 2 := by
  have a : 0.879 ≤ 1 - E := by linarith
  have b : 0.879 ≤ 1 - F := by linarith
  have hr : 0 ≤ r := (abs_nonneg _).trans h
  have hs0 : 0 ≤ s := (abs_nonneg _).trans hs
  have a0 : 0 < 1 - E := by linarith
  have b0 : 0 < 1 - F := by linarith
  rw [show x / (1 - E) - y / (1 - F) = (x - y) / (1 - F) + x * (E - F) / ((1 - E) * (1 - F)) by field_simp; ring]
  refine (abs_add_le _ _).trans (add_le_add ?_ ?_)
  · rw [abs_div, abs_of_pos b0]
    exact div_le_div₀ hr h (by norm_num) b
  · rw [abs_div, abs_mul, abs_of_nonneg hx0, abs_of_pos (mul_pos a0 b0)]
    refine div_le_div₀ (by positivity) (mul_le_mul hx hs (abs_nonneg _) (by norm_num)) (by norm_num) ?_
    nlinarith

/-- Without spins the two families put the ringdown at the same frequency to 1.5e-4 and give it the same width to 1.0e-4, in
    units of the total mass (the ringdown frequency is above 0.045 there, see C91). -/
theorem C98_ringdown {eps : ℝ} (he : 0 ≤ eps) (he' : eps < 4e-6) (m1 m2 : ℝ) (h2 : 0 < m2) (hm : m2 ≤ m1) :
    |(XAS.get_cutoff_fMs m1 m2 0 0).fRD - (get_fRD_fdamp (qnmTable eps) m1 m2 0 0).1 * ((m1 + m2) * gt)| ≤ 1.5e-4 ∧
    |(XAS.get_cutoff_fMs m1 m2 0 0).fdamp - (get_fRD_fdamp (qnmTable eps) m1 m2 0 0).2 * ((m1 + m2) * gt)| ≤ 1e-4 := by
  have h1 : 0 < m1 := by linarith
  have hg := gt_pos
  have hp : (⟨m1, m2, 0, 0⟩ : Theta).Physical := ⟨h1, h2, by norm_num, by norm_num⟩
  obtain ⟨-, -, key⟩ := remnants_close hp hm
  obtain ⟨ka, kE⟩ := key rfl rfl
  have hb := XAS.eta_box hp
  have e0 := (XAS.etaOf_range hp).1
  have hS : spinOf ⟨m1, m2, 0, 0⟩ = 0 := by unfold spinOf; simp
  have ee := etas_eq ⟨m1, m2, 0, 0⟩
  have hX := XAS.cutoffs_eq ⟨m1, m2, 0, 0⟩
  have hEX := XAS.erad_range hp
  simp only at ka kE hX
  rw [hS] at ka
  have haD : FinalSpin0815_s (etaOf ⟨m1, m2, 0, 0⟩) 0 = XAS.etaOf ⟨m1, m2, 0, 0⟩ * spinR (XAS.etaOf ⟨m1, m2, 0, 0⟩) 0 := by
    rw [← ee, finalSpin_eq e0.ne', zero_add]
  have r1 := spin0_hi _ hb
  have r2 := mul_pos e0 (spin0_lo _ hb)
  rw [← haD] at r1 r2
  have eD : (get_fRD_fdamp (qnmTable eps) m1 m2 0 0).1 * ((m1 + m2) * gt) =
        Jnp.interp eps (FinalSpin0815_s (etaOf ⟨m1, m2, 0, 0⟩) 0) (qnmTable eps).a (qnmTable eps).fRD /
          (1 - EradRational0815 (etaOf ⟨m1, m2, 0, 0⟩) 0 0) ∧
      (get_fRD_fdamp (qnmTable eps) m1 m2 0 0).2 * ((m1 + m2) * gt) =
        Jnp.interp eps (FinalSpin0815_s (etaOf ⟨m1, m2, 0, 0⟩) 0) (qnmTable eps).a (qnmTable eps).fdamp /
          (1 - EradRational0815 (etaOf ⟨m1, m2, 0, 0⟩) 0 0) := by
    have e1 : m1 * gt * (m2 * gt) / (m1 * gt + m2 * gt) ^ 2 = etaOf ⟨m1, m2, 0, 0⟩ := ee
    have e2 : (0 * (m1 * gt) ^ 2 + 0 * (m2 * gt) ^ 2) / (m1 * gt + m2 * gt) ^ 2 = 0 := by simp
    have e3 : (m1 + m2) * gt ≠ 0 := by positivity
    unfold get_fRD_fdamp
    simp only [e1, e2, table_eps]
    rw [show m1 * gt + m2 * gt = (m1 + m2) * gt by ring]
    exact ⟨div_mul_cancel₀ _ e3, div_mul_cancel₀ _ e3⟩
  rw [eD.1, eD.2, hX]
  generalize XAS.spinOf ⟨m1, m2, 0, 0⟩ = aX at *
  generalize FinalSpin0815_s (etaOf ⟨m1, m2, 0, 0⟩) 0 = aD at *
  generalize XAS.eradOf ⟨m1, m2, 0, 0⟩ = EX at *
  generalize EradRational0815 (etaOf ⟨m1, m2, 0, 0⟩) 0 0 = ED at *
  obtain ⟨ka1, ka2⟩ := abs_le.1 ka
  obtain ⟨l1, l2, l3⟩ := C97_lookup he he' aD (by linarith) (by linarith)
  have l2 := l2 (by linarith)
  have q1 := XAS.fRD_lip (a := aX) (b := aD) (by linarith) (by linarith) (by linarith) (by linarith)
  have q2 := XAS.fdamp_lip (a := aX) (b := aD) (by linarith) (by linarith) (by linarith) (by linarith)
  have ht : 0 ≤ 1 - aX ∧ 1 - aX ≤ 2 := ⟨by linarith, by linarith⟩
  have f1 : XAS.fRDof aX EX = XAS.fRDof aX 0 / (1 - EX) := by rw [XAS.fRDof_eq, XAS.fRDof_eq, sub_zero, div_one]
  have f2 : XAS.fdampOf aX EX = XAS.fdampOf aX 0 / (1 - EX) := by rw [XAS.fdampOf_eq, XAS.fdampOf_eq, sub_zero, div_one]
  have g1 : 0 ≤ XAS.fRDof aX 0 ∧ XAS.fRDof aX 0 ≤ 0.16 := by
    rw [XAS.fRDof_eq, sub_zero, div_one, le_div_iff₀ (XAS.rD_pos _ ht), div_le_iff₀ (XAS.rD_pos _ ht)]
    constructor <;> linarith [XAS.gR_lo _ ht, XAS.gR_hi _ ht, XAS.rD_pos _ ht]
  have g2 : 0 ≤ XAS.fdampOf aX 0 ∧ XAS.fdampOf aX 0 ≤ 0.16 := by
    rw [XAS.fdampOf_eq, sub_zero, div_one, le_div_iff₀ (XAS.dD_pos _ ht), div_le_iff₀ (XAS.dD_pos _ ht)]
    constructor <;> linarith [XAS.gD_lo _ ht, XAS.gD_hi _ ht, XAS.dD_pos _ ht]
  have n1 : |XAS.fRDof aX 0 - Jnp.interp eps aD (qnmTable eps).a (qnmTable eps).fRD| ≤ 1.04e-4 := by
    have := abs_sub_le (XAS.fRDof aX 0) (XAS.fRDof aD 0) (Jnp.interp eps aD (qnmTable eps).a (qnmTable eps).fRD)
    rw [abs_sub_comm] at l2
    linarith
  have n2 : |XAS.fdampOf aX 0 - Jnp.interp eps aD (qnmTable eps).a (qnmTable eps).fdamp| ≤ 7.1e-5 := by
    have := abs_sub_le (XAS.fdampOf aX 0) (XAS.fdampOf aD 0) (Jnp.interp eps aD (qnmTable eps).a (qnmTable eps).fdamp)
    rw [abs_sub_comm] at l3
    linarith
  constructor
  · rw [f1]
    exact (div_close hEX.2 (by linarith [(abs_le.1 kE).1]) g1.1 g1.2 n1 kE).trans (by norm_num)
  · rw [f2]
    exact (div_close hEX.2 (by linarith [(abs_le.1 kE).1]) g2.1 g2.2 n2 kE).trans (by norm_num)

example : (0 : ℝ) < 29 ∧ (29 : ℝ) ≤ 36 := by norm_num

end Ripple

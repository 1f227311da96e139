/-
  Property theorems C95 (remnant of a precessing binary) and C96 (frequency regions and cutoff of PhenomPv2) for all physical
  binaries: `m1 ≥ m2 > 0` and spin vectors of length at most one.
-/
import Verif.Proofs.RemnantPv2
import Verif.Props.QNM
import Verif.Props.Pv2

namespace Ripple
open PhenomD Pv2 V3 QNMData Set

section
variable {m1 m2 : ℝ} (s1 s2 : V3) (phiRef incl f_ref : ℝ)

lemma thetaP_physical {s1 s2 : V3} (h2 : 0 < m2) (h : m2 ≤ m1) (hs1 : len s1 ≤ 1) (hs2 : len s2 ≤ 1) :
    (thetaP m1 m2 s1 s2).Physical :=
  ⟨lt_of_lt_of_le h2 h, h2, abs_le.2 (z_le hs1), abs_le.2 (z_le hs2)⟩

/-! ### C95 -/

/-- The spin of the remnant of every precessing binary lies strictly between -1 and 1. -/
theorem C95_spin_range (h2 : 0 < m2) (h : m2 ≤ m1) (hs1 : len s1 ≤ 1) (hs2 : len s2 ≤ 1) :
    let a := FinalSpin_inplane m1 m2 s1.2.2 s2.2.2 (frameP m1 m2 s1 s2 f_ref phiRef incl).chip
    (-1 < a) ∧ a < 1 :=
  remnant_precessing h2 h hs1 hs2 f_ref phiRef incl

/-- It is the length of the vector made of the in-plane spin `chip (m1/M)²` and the aligned-spin remnant, with the sign of
    the latter; without in-plane spin it is PhenomD's. -/
theorem C95_spin_value (h2 : 0 < m2) (h : m2 ≤ m1) (chip : ℝ) :
    let a0 := FinalSpin0815_s (etaOf (thetaP m1 m2 s1 s2)) (spinOf (thetaP m1 m2 s1 s2))
    let a := FinalSpin_inplane m1 m2 s1.2.2 s2.2.2 chip
    a ^ 2 = a0 ^ 2 + (chip * (m1 / (m1 + m2)) ^ 2) ^ 2 ∧ (0 ≤ a0 → 0 ≤ a) ∧ (a0 < 0 → a < 0) := by
  intro a0 a
  have h1 : 0 < m1 := lt_of_lt_of_le h2 h
  have e0 : FinalSpin0815 (m1 * m2 / ((m1 + m2) * (m1 + m2))) s1.2.2 s2.2.2 = a0 := by
    rw [finalSpin0815_eq h2 h]
    show _ = FinalSpin0815_s (m1 * m2 / (m1 + m2) ^ 2) ((s1.2.2 * m1 ^ 2 + s2.2.2 * m2 ^ 2) / (m1 + m2) ^ 2)
    rw [finalSpin_eq (by positivity)]
    have e1 : m2 / (m1 + m2) * (m1 / (m1 + m2)) = m1 * m2 / (m1 + m2) ^ 2 := by field_simp
    have e2 : (m1 / (m1 + m2)) ^ 2 * s1.2.2 + (m2 / (m1 + m2)) ^ 2 * s2.2.2 =
        (s1.2.2 * m1 ^ 2 + s2.2.2 * m2 ^ 2) / (m1 + m2) ^ 2 := by field_simp
    rw [e1, e2]
  have ea : a = Jnp.copysign1 a0 * Real.sqrt ((chip * (m1 / (m1 + m2)) ^ 2) ^ 2 + a0 ^ 2) := by
    show FinalSpin_inplane m1 m2 s1.2.2 s2.2.2 chip = _
    unfold FinalSpin_inplane
    simp only [e0]
    congr 2
    ring
  have hn : 0 ≤ (chip * (m1 / (m1 + m2)) ^ 2) ^ 2 + a0 ^ 2 := by positivity
  have hs := Real.sqrt_nonneg ((chip * (m1 / (m1 + m2)) ^ 2) ^ 2 + a0 ^ 2)
  have hq := Real.sq_sqrt hn
  refine ⟨?_, fun h0 => ?_, fun h0 => ?_⟩
  · rw [ea, mul_pow, hq]
    unfold Jnp.copysign1
    split_ifs <;> ring
  · rw [ea, Jnp.copysign1, if_neg (not_lt.2 h0), one_mul]; exact hs
  · rw [ea, Jnp.copysign1, if_pos h0]
    have : 0 < Real.sqrt ((chip * (m1 / (m1 + m2)) ^ 2) ^ 2 + a0 ^ 2) := by
      refine Real.sqrt_pos.2 ?_
      have := sq_pos_of_neg h0
      positivity
    linarith

/-- Ringdown and damping frequency with the shipped tables: the published ones (interpolated) at that spin, never clamped,
    for a remnant of mass `(1 - Erad) M`. -/
theorem C95_ringdown {eps : ℝ} (he : 0 ≤ eps) (he' : eps < 4e-6) (h2 : 0 < m2) (h : m2 ≤ m1) (hs1 : len s1 ≤ 1)
    (hs2 : len s2 ≤ 1) :
    ∃ R D : ℝ → ℝ, NotAKnotSpline knots valRD R ∧ NotAKnotSpline knots valdamp D ∧
      let chip := (frameP m1 m2 s1 s2 f_ref phiRef incl).chip
      let a := FinalSpin_inplane m1 m2 s1.2.2 s2.2.2 chip
      let Mf := (1 - EradRational0815 (etaOf (thetaP m1 m2 s1 s2)) s1.2.2 s2.2.2) * ((m1 + m2) * gt)
      0 < Mf ∧ |(tfP (qnmTable eps) m1 m2 s1 s2 chip).f_RD * Mf - R a| ≤ 4e-5 ∧
        |(tfP (qnmTable eps) m1 m2 s1 s2 chip).f_damp * Mf - D a| ≤ 4e-5 := by
  obtain ⟨R, D, hR, hD, hl⟩ := C93_lookup he he'
  refine ⟨R, D, hR, hD, ?_⟩
  intro chip a Mf
  have hp := thetaP_physical h2 h hs1 hs2
  have h1 : 0 < m1 := lt_of_lt_of_le h2 h
  have hg := gt_pos
  have er := etaOf_range hp
  have hE := Erad_lt (etaOf (thetaP m1 m2 s1 s2)) s1.2.2 s2.2.2 er.1 er.2 hp.chi1_le hp.chi2_le
  have hE' : 0 < 1 - EradRational0815 (etaOf (thetaP m1 m2 s1 s2)) s1.2.2 s2.2.2 := by linarith
  have hM : 0 < (m1 + m2) * gt := by positivity
  have ee : m1 * gt * (m2 * gt) / (m1 * gt + m2 * gt) ^ 2 = etaOf (thetaP m1 m2 s1 s2) := by
    show _ = m1 * m2 / (m1 + m2) ^ 2
    field_simp
  have eM : m1 * gt + m2 * gt = (m1 + m2) * gt := by ring
  have hr := C95_spin_range s1 s2 phiRef incl f_ref h2 h hs1 hs2
  have ha := hl a hr.1.le hr.2.le
  refine ⟨mul_pos hE' hM, ?_, ?_⟩
  · rw [show (tfP (qnmTable eps) m1 m2 s1 s2 chip).f_RD * Mf =
      Jnp.interp eps a (qnmTable eps).a (qnmTable eps).fRD from ?_]
    · exact ha.1
    · show (phP_get_fRD_fdamp (qnmTable eps) m1 m2 s1.2.2 s2.2.2 chip).1 * Mf = _
      unfold phP_get_fRD_fdamp
      simp only [ee, table_eps]
      rw [eM]
      show Jnp.interp eps a (qnmTable eps).a (qnmTable eps).fRD / _ / _ * (_ * _) = _
      field_simp
  · rw [show (tfP (qnmTable eps) m1 m2 s1 s2 chip).f_damp * Mf =
      Jnp.interp eps a (qnmTable eps).a (qnmTable eps).fdamp from ?_]
    · exact ha.2
    · show (phP_get_fRD_fdamp (qnmTable eps) m1 m2 s1.2.2 s2.2.2 chip).2 * Mf = _
      unfold phP_get_fRD_fdamp
      simp only [ee, table_eps]
      rw [eM]
      show Jnp.interp eps a (qnmTable eps).a (qnmTable eps).fdamp / _ / _ * (_ * _) = _
      field_simp

/-- witness: two maximal, misaligned spins -/
example : len (0.6, 0, 0.8) ≤ 1 ∧ len (0, 1, 0) ≤ 1 := by
  unfold len V3.dot
  constructor <;> rw [Real.sqrt_le_one] <;> norm_num

/-! ### C96 -/

lemma phP_range {Q : QNM} (hq : Q.Shipped) {s1 s2 : V3} (h : (thetaP m1 m2 s1 s2).Physical) (chip : ℝ) :
    ∃ y z w : ℝ, 0.046 ≤ y ∧ y ≤ 0.159 ∧ 0.0002 ≤ z ∧ z ≤ 0.0145 ∧ 1 < w ∧ w < 1.25 ∧
      (tfP Q m1 m2 s1 s2 chip).f_RD = y * w / Ms (thetaP m1 m2 s1 s2) ∧
      (tfP Q m1 m2 s1 s2 chip).f_damp = z * w / Ms (thetaP m1 m2 s1 s2) := by
  obtain ⟨e0, e4⟩ := eta_s_range h.m1_pos h.m2_pos
  obtain ⟨E0, _⟩ := C26_radiated_energy _ _ _ e0 e4 h.chi1_le h.chi2_le
  have E1 := Erad_lt _ _ _ e0 e4 h.chi1_le h.chi2_le
  set a := FinalSpin_inplane m1 m2 s1.2.2 s2.2.2 chip with ha
  have r1 := interp_mem_range hq.eps_nonneg hq.good a Q.fRD (lo := 0.046) (hi := 0.159)
    (fun k hk => hq.RD_range _ (Jnp.getD_mem (by have := hq.len_RD; omega)))
  have r2 := interp_mem_range hq.eps_nonneg hq.good a Q.fdamp (lo := 0.0002) (hi := 0.0145)
    (fun k hk => hq.damp_range _ (Jnp.getD_mem (by have := hq.len_damp; omega)))
  set E := EradRational0815 (m1 * gt * (m2 * gt) / (m1 * gt + m2 * gt) ^ 2) s1.2.2 s2.2.2 with hE
  have hp : 0 < 1 - E := by
    have : E < 1 / 5 := E1
    linarith
  have E0' : 0 < E := E0
  have E1' : E < 1 / 5 := E1
  refine ⟨_, _, 1 / (1 - E), r1.1, r1.2, r2.1, r2.2, ?_, ?_, ?_, ?_⟩
  · rw [lt_div_iff₀ hp]; linarith
  · rw [div_lt_iff₀ hp]; linarith
  · rw [mul_one_div]; rfl
  · rw [mul_one_div]; rfl

/-- Phase and amplitude regions of PhenomPv2 are ordered, below the cutoff. -/
theorem C96_regions_ordered (Q : QNM) (hq : Q.Shipped) (h2 : 0 < m2) (h : m2 ≤ m1) (hs1 : len s1 ≤ 1) (hs2 : len s2 ≤ 1)
    (chip : ℝ) :
    let tf := tfP Q m1 m2 s1 s2 chip
    0 < tf.f1 ∧ tf.f1 < tf.f2 ∧ tf.f2 < tf.f_RD ∧ 0 < tf.f3 ∧ tf.f3 < tf.f4 ∧ tf.f4 ≤ tf.f_RD ∧
      tf.f_RD < 0.2 / ((m1 + m2) * gt) ∧ 0 < tf.f_damp := by
  intro tf
  have hp := thetaP_physical h2 h hs1 hs2
  obtain ⟨y, z, w, hr⟩ := phP_range hq hp chip
  have hro := regions_ordered hp tf rfl rfl hr
  have hg := gt_pos
  have h1 : 0 < m1 := lt_of_lt_of_le h2 h
  have hM : 0 < Ms (thetaP m1 m2 s1 s2) := by unfold Ms thetaP; positivity
  have e1 : tf.f1 = 0.018 / Ms (thetaP m1 m2 s1 s2) := by rw [← Ms_eq]; rfl
  have e2 : tf.f2 = 0.5 * tf.f_RD := rfl
  have eR : tf.f_RD = y * w / Ms (thetaP m1 m2 s1 s2) := hr.2.2.2.2.2.2.1
  have hyw : 0.046 < y * w := by nlinarith [hr.1, hr.2.2.2.2.1]
  have hRp : 0 < tf.f_RD := by rw [eR]; positivity
  refine ⟨by rw [e1]; positivity, ?_, by rw [e2]; linarith, hro.1, hro.2.1, hro.2.2.1, hro.2.2.2.1, hro.2.2.2.2.1⟩
  rw [e1, e2, eR, ← mul_div_assoc]
  exact div_lt_div_of_pos_right (by linarith) hM

/-- The phase of the underlying aligned-spin waveform is continuously differentiable, and so is its amplitude below the
    cutoff. -/
theorem C96_smooth (Q : QNM) (hq : Q.Shipped) (h2 : 0 < m2) (h : m2 ≤ m1) (hs1 : len s1 ≤ 1) (hs2 : len s2 ≤ 1)
    (chip D : ℝ) (hD : 0 < D) :
    ContDiffOn ℝ 1 (fun f => Phase f (thetaP m1 m2 s1 s2) (get_coeffs (thetaP m1 m2 s1 s2)) (tfP Q m1 m2 s1 s2 chip)) (Ioi 0) ∧
    ∃ A : ℝ → ℝ, ContDiffOn ℝ 1 A (Ioi 0) ∧
      ∀ grid : List ℝ, (∀ f ∈ grid, f < 0.2 / ((m1 + m2) * gt)) → ampP Q grid m1 m2 s1 s2 chip D = grid.map A := by
  have hp := thetaP_physical h2 h hs1 hs2
  obtain ⟨a, b, c, d, e, f, g, k⟩ := C96_regions_ordered s1 s2 Q hq h2 h hs1 hs2 chip
  have g3 := (coeffs_range hp).2.2.1
  refine ⟨C28_phase_C1 _ hp.m1_pos hp.m2_pos _ _ k a b, ?_⟩
  exact C29_amplitude_C1 _ hp.m1_pos hp.m2_pos _ _ k (by linarith) d e D hD

variable (Q : QNM) (grid : List ℝ) (D tc : ℝ)

/-- On an increasing grid that reaches the cutoff `0.2/M`, with a point below it closer than the first one, both polarisations
    vanish at every frequency at or above the cutoff. -/
theorem C96_zeroed (hq : Q.Shipped) (h2 : 0 < m2) (h : m2 ≤ m1) (hs1 : len s1 ≤ 1) (hs2 : len s2 ≤ 1)
    (hinc : Increasing grid) (i : ℕ) (hi : IsClosest grid (0.2 / ((m1 + m2) * gt)) i) (h0 : 0 < i) :
    ∃ hp hc, gen_IMRPhenomPv2 Q grid (pars m1 m2 s1 s2 D tc phiRef incl) f_ref = .ok (hp, hc) ∧
      ∀ j, j < grid.length → 0.2 / ((m1 + m2) * gt) ≤ grid.getD j 0 → hp.getD j 0 = 0 ∧ hc.getD j 0 = 0 := by
  refine ⟨_, _, genP_eq Q grid m1 m2 s1 s2 D tc phiRef incl f_ref, fun j hj hx => ?_⟩
  set c := conv m2 m1 f_ref phiRef incl s2 s1 with hcv
  obtain ⟨r1, r2, r3, a, b, cc, d, e⟩ := C96_regions_ordered s1 s2 Q hq h2 h hs1 hs2 c.chip
  have ecut : fM_CUT / Ms (thetaP m1 m2 s1 s2) = 0.2 / ((m1 + m2) * gt) := by rw [← Ms_eq]; rfl
  have hl : 0.2 / ((m1 + m2) * gt) ≤ grid.getD (grid.length - 1) 0 := by
    rcases Nat.lt_or_ge j (grid.length - 1) with hlt | hge
    · exact hx.trans (hinc _ _ hlt (by omega)).le
    · rw [show grid.length - 1 = j by omega]; exact hx
  have hij := (C30_lost_points grid hinc _ i hi h0).2.1 j hj hx
  have hle : grid.getD (i - 1) 0 ≤ grid.getD j 0 := by
    rcases Nat.lt_or_ge (i - 1) j with h | h
    · exact (hinc _ _ h hj).le
    · have : i - 1 = j := by omega
      rw [this]
  have h4 : (tfP Q m1 m2 s1 s2 c.chip).f4 < grid.getD j 0 := lt_of_lt_of_le (lt_of_le_of_lt cc d) hx
  have hA : hDs Q m1 m2 s1 s2 c.chip c.phi_aligned D (grid.getD (i - 1) 0) (grid.getD j 0) = 0 := by
    unfold hDs
    rw [ampAt_cut hle (b.trans h4) h4]
    simp
  have ht : twP Q m1 m2 s1 s2 D tc f_ref c (grid.getD (i - 1) 0) (grid.getD j 0) = (0, 0) := by
    unfold twP
    rw [hA, ← zero_mul (0 : ℂ), twist_smul]
    simp
  rw [map_getElem hj, map_getElem hj, ecut, cutThr_pos hi h0 hl, ht]
  simp [rotP]

/-- On an increasing grid lying entirely above the cutoff nothing but the last sample is cut: the others carry power although
    their frequencies are above the cutoff. -/
theorem C96_wraps (hq : Q.Shipped) (h2 : 0 < m2) (h : m2 ≤ m1) (hs1 : len s1 ≤ 1) (hs2 : len s2 ≤ 1) (hD : 0 < D)
    (hinc : Increasing grid) (hab : ∀ x ∈ grid, 0.2 / ((m1 + m2) * gt) ≤ x) :
    ∃ hp hc, gen_IMRPhenomPv2 Q grid (pars m1 m2 s1 s2 D tc phiRef incl) f_ref = .ok (hp, hc) ∧
      ∀ j, j + 1 < grid.length → LplusS m1 m2 s1 s2 (grid.getD j 0) ≠ 0 →
        0 < ‖hp.getD j 0‖ ^ 2 + ‖hc.getD j 0‖ ^ 2 := by
  obtain ⟨hp, hc, he, hall⟩ := C60_power Q grid s1 s2 D tc phiRef incl f_ref h2 h
  refine ⟨hp, hc, he, fun j hj hL => ?_⟩
  have hne : grid ≠ [] := by rintro rfl; simp at hj
  have hx := hab _ (Jnp.getD_mem (l := grid) (i := j) (by omega))
  have hlast' := hab _ (Jnp.getD_mem (l := grid) (i := grid.length - 1) (by omega))
  have hlast : grid.getD j 0 < grid.getD (grid.length - 1) 0 := hinc _ _ (by omega) (by omega)
  have ph := thetaP_physical h2 h hs1 hs2
  obtain ⟨g1, g2, g3, -⟩ := coeffs_range ph
  set chip := (frameP m1 m2 s1 s2 f_ref phiRef incl).chip with hchip
  obtain ⟨r1, r2, r3, a, b, cc, d, e⟩ := C96_regions_ordered s1 s2 Q hq h2 h hs1 hs2 chip
  have h4 : (tfP Q m1 m2 s1 s2 chip).f4 < grid.getD j 0 := lt_of_lt_of_le (lt_of_le_of_lt cc d) hx
  have hpos : 0 < grid.getD j 0 := (a.trans b).trans h4
  have ecut : fM_CUT / Ms (thetaP m1 m2 s1 s2) = 0.2 / ((m1 + m2) * gt) := by rw [← Ms_eq]; rfl
  have hA : 0 < (ampP Q grid m1 m2 s1 s2 chip D).getD j 0 := by
    simp only [ampP, Amp_eq]
    rw [List.getD_eq_getElem _ _ (by simpa using (by omega : j < grid.length)), List.getElem_map,
      ← List.getD_eq_getElem _ 0 (by omega), ecut, cutThr_wrap (C30_wraps_when_above grid hne hinc _ hab) hlast']
    exact lor_pos_amp ph.m1_pos ph.m2_pos e (by linarith) (by linarith) hD hlast hpos (b.trans h4) h4
  have := (hall j (by omega) hpos hL).2.1
  have hA2 : 0 < (ampP Q grid m1 m2 s1 s2 chip D).getD j 0 ^ 2 / 4 := by positivity
  exact lt_of_lt_of_le hA2 this

/-- witness: an increasing grid above the cutoff of a 36+29 solar mass binary, and one that straddles it -/
example : Increasing [1000, 2000] ∧ (∀ x ∈ [(1000 : ℝ), 2000], 0.2 / ((36 + 29) * gt) ≤ x) ∧
    IsClosest [100, 600] (0.2 / ((36 + 29) * gt)) 1 := by
  have hg : 0.0000049 < gt ∧ gt < 0.000005 := by unfold gt; norm_num [G, MSUN, C]
  have hc : 0.2 / ((36 + 29) * gt) ≤ 700 ∧ 600 ≤ 0.2 / ((36 + 29) * gt) := by
    constructor
    · rw [div_le_iff₀ (by linarith)]; linarith
    · rw [le_div_iff₀ (by linarith)]; linarith
  refine ⟨?_, ?_, ?_⟩
  · intro i j hij hj
    simp at hj
    obtain ⟨rfl, rfl⟩ : i = 0 ∧ j = 1 := by omega
    norm_num
  · intro x hx
    simp at hx
    rcases hx with rfl | rfl <;> linarith
  · refine ⟨by simp, fun j hj => ?_, fun j hj => ?_⟩
    · simp at hj
      have : j = 0 ∨ j = 1 := by omega
      rcases this with rfl | rfl
      · simp only [List.getD_cons_zero, List.getD_cons_succ]
        rw [abs_of_nonpos (by linarith), abs_of_nonpos (by linarith)]
        linarith
      · rfl
    · obtain rfl : j = 0 := by omega
      simp only [List.getD_cons_zero, List.getD_cons_succ]
      rw [abs_of_nonpos (by linarith), abs_of_nonpos (by linarith)]
      linarith

end
end Ripple

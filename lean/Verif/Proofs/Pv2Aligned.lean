/-
  Helper lemmas: PhenomPv2 without in-plane spins.
-/
import Verif.Proofs.Pv2Norm

namespace Ripple
namespace Pv2
open V3 PhenomD

lemma aligned_frame {m1 m2 f_ref : ℝ} (h1 : 0 < m1) (h2 : 0 < m2) (hf : 0 < f_ref) (phiRef incl a b : ℝ)
    (hJ : (totalJ gt m1 m2 f_ref (0, 0, a) (0, 0, b)).2.2 ≠ 0) :
    let c := conv m1 m2 f_ref phiRef incl (0, 0, a) (0, 0, b)
    let Jz := (totalJ gt m1 m2 f_ref (0, 0, a) (0, 0, b)).2.2
    c.chip = 0 ∧ c.alpha0 = 0 ∧ c.phi_aligned = 0 ∧ Real.cos c.thetaJN = Jz / |Jz| * Real.cos incl ∧
    (Real.sin incl ≠ 0 → Real.cos (2 * c.zeta_polariz) = -1 ∧ Real.sin (2 * c.zeta_polariz) = 0) := by
  intro c Jz
  have hJ0 : totalJ gt m1 m2 f_ref (0, 0, a) (0, 0, b) ≠ 0 := fun h => hJ (by rw [h]; rfl)
  have hJe : totalJ gt m1 m2 f_ref (0, 0, a) (0, 0, b) = (0, 0, Jz) := by
    simp only [Jz, totalJ]; norm_num
  have hlen : len (0, 0, Jz) = |Jz| := by
    unfold len V3.dot
    rw [show (0 : ℝ) * 0 + 0 * 0 + Jz * Jz = Jz ^ 2 by ring]
    exact Real.sqrt_sq_eq_abs Jz
  have hJz : Jz ≠ 0 := hJ
  have habs : |Jz| ≠ 0 := abs_ne_zero.2 hJz
  have ez : ∀ R : V3 → V3, IsRotation R → R (0, 0, Jz) = (0, 0, |Jz|) → R (0, 0, 1) = (0, 0, |Jz| / Jz) := by
    intro R hR hRJ
    have hl := hR.linear Jz⁻¹ (0, 0, Jz) 0 (0, 0, 0)
    rw [show comb Jz⁻¹ (0, 0, Jz) 0 (0, 0, 0) = (0, 0, 1) by simp [comb, hJz], hRJ] at hl
    rw [hl]
    simp only [comb, Prod.mk.injEq]
    refine ⟨by ring, by ring, ?_⟩
    ring
  have hchip : c.chip = 0 := (C57_zero_iff f_ref phiRef incl (0, 0, a) (0, 0, b) h1 h2).2 ⟨rfl, rfl, rfl, rfl⟩
  have hth := C58_angle f_ref phiRef incl (0, 0, a) (0, 0, b) h1 h2 hf hJ0
  rw [hJe, hlen] at hth
  obtain ⟨-, e2, e3, -, -, -⟩ := convert_eq h1 h2 hf phiRef incl (0, 0, a) (0, 0, b)
  rw [hJe] at e2 e3
  have hR0 := toJN_J (J := (0, 0, Jz)) (losN incl phiRef) (fun h => hJz (congrArg (fun v : V3 => v.2.2) h))
  rw [hlen] at hR0
  rw [ez _ (toJN_isRotation _ _) hR0] at e2
  refine ⟨hchip, ?_, ?_, ?_, fun hs => ?_⟩
  · exact e2.trans arctan2_zero
  · exact e3.trans (by rw [arctan2_zero, neg_zero])
  · rw [hth]
    simp only [V3.dot, dir]
    ring
  · obtain ⟨-, -, -, -, -, R, hR, hRJ, hRN, -, hRX⟩ := C58_frame f_ref phiRef incl (0, 0, a) (0, 0, b) h1 h2 hf hJ0
    rw [hJe, hlen] at hRJ
    have hez := ez R hR hRJ
    have hX : comb (Real.sin incl) (polarX incl phiRef) (Real.cos incl) (lineOfSight incl phiRef) = (0, 0, 1) := by
      simp only [polarX, comb, lineOfSight, dir, Real.cos_pi_div_two_sub, Real.sin_pi_div_two_sub, Real.sin_add,
        Real.cos_add, Real.cos_pi_div_two, Real.sin_pi_div_two, Prod.mk.injEq]
      refine ⟨by ring, by ring, ?_⟩
      linear_combination Real.sin_sq_add_cos_sq incl
    have hl := hR.linear (Real.sin incl) (polarX incl phiRef) (Real.cos incl) (lineOfSight incl phiRef)
    rw [hX, hez, hRX, hRN] at hl
    have hy := congrArg (fun v : V3 => v.2.1) hl
    simp only [comb, dir, V3.cross, Real.sin_zero] at hy
    have hcz : Real.cos c.zeta_polariz = 0 := by
      have : Real.sin incl * Real.cos c.zeta_polariz = 0 := by linarith
      exact (mul_eq_zero.1 this).resolve_left hs
    rw [Real.cos_two_mul, Real.sin_two_mul, hcz]
    norm_num

lemma wigner_zero (v SL eta : ℝ) : WignerdCoefficients v SL eta 0 = (1, 0) := by
  unfold WignerdCoefficients
  norm_num

lemma nnlo_zero (q chil w : ℝ) :
    alphaS (ComputeNNLOanglecoeffs q chil 0) w = epsS (ComputeNNLOanglecoeffs q chil 0) w := by
  obtain ⟨a1, a2, -, -, -, a3, a4, a5⟩ := C84_alpha_epsilon chil 0 q
  unfold alphaS epsS
  rw [a1, a2, a3, a4, a5]

/-- the twisted-up waveform without in-plane spins -/
lemma twP_aligned (Q : QNM) (m1 m2 : ℝ) (s1 s2 : V3) (D tc f_ref : ℝ) (c : Converted) (thr f : ℝ)
    (hc : c.chip = 0) (ha : c.alpha0 = 0) (hp : c.phi_aligned = 0) :
    let x := Real.cos c.thetaJN
    let h := (ampAt (thetaP m1 m2 s1 s2) (get_coeffs (thetaP m1 m2 s1 s2)) (tfP Q m1 m2 s1 s2 0) D thr f : ℂ)
      * Complex.exp (-Complex.I * ((Phase f (thetaP m1 m2 s1 s2) (get_coeffs (thetaP m1 m2 s1 s2))
          (tfP Q m1 m2 s1 s2 0) : ℝ) : ℂ)) * corrP Q m1 m2 s1 s2 0 tc f
    twP Q m1 m2 s1 s2 D tc f_ref c thr f = ((((1 + x ^ 2) / 2 : ℝ) : ℂ) * h, -(Complex.I * h * (x : ℂ))) := by
  intro x h
  have hcx : x = Real.cos (c.thetaJN / 2) ^ 2 - Real.sin (c.thetaJN / 2) ^ 2 := by
    simp only [x]; rw [← Real.cos_two_mul']; congr 1; ring
  have hs1 := Real.sin_sq_add_cos_sq (c.thetaJN / 2)
  have hw := twist_eq f (hDs Q m1 m2 s1 s2 0 0 D thr f) (m2 * m1 / ((m2 + m1) * (m2 + m1)))
    s2.2.2 s1.2.2 0 (m2 + m1) (angP m1 m2 s1 s2 0) c.thetaJN
    (alphaS (angP m1 m2 s1 s2 0) (PI * ((m2 + m1) * gt) * f_ref) - 0)
    (epsS (angP m1 m2 s1 s2 0) (PI * ((m2 + m1) * gt) * f_ref))
  simp only [zero_mul, wigner_zero, sub_zero] at hw
  have hang : ∀ w, epsS (angP m1 m2 s1 s2 0) w = alphaS (angP m1 m2 s1 s2 0) w := fun w => (nnlo_zero _ _ w).symm
  simp only [twP, hc, ha, hp, sub_zero]
  rw [hw]
  simp only [hang]
  generalize alphaS (angP m1 m2 s1 s2 0) (PI * (f * gt * (m2 + m1))) - alphaS (angP m1 m2 s1 s2 0) (PI * ((m2 + m1) * gt) * f_ref) = al
  have hu : Complex.exp (-(2 * Complex.I) * (al : ℂ)) * Complex.exp (Complex.I * (al : ℂ) / 2) ^ 4 = 1 := by
    rw [← Complex.exp_nat_mul, ← Complex.exp_add, ← Complex.exp_zero]
    congr 1
    push_cast
    ring
  have hrat := norm_sqrt_ratio
  have hH : hDs Q m1 m2 s1 s2 0 0 D thr f * (Real.sqrt (5 / (4 * Real.pi)) : ℝ) * corrP Q m1 m2 s1 s2 0 tc f = 2 * h := by
    have hrc : ((Real.sqrt (5 / (4 * Real.pi)) / (2 * Real.sqrt (5 / (64 * PI))) : ℝ) : ℂ) = 2 := by
      rw [hrat]; norm_num
    simp only [hDs, h, mul_zero, sub_zero]
    rw [← hrc]
    generalize Complex.exp _ = E
    generalize corrP Q m1 m2 s1 s2 0 tc f = K
    generalize Real.sqrt (5 / (4 * Real.pi)) = n
    generalize Real.sqrt (5 / (64 * PI)) = r
    push_cast
    ring
  generalize hDs Q m1 m2 s1 s2 0 0 D thr f = H at *
  generalize corrP Q m1 m2 s1 s2 0 tc f = K at *
  generalize Real.sqrt (5 / (4 * Real.pi)) = n at *
  generalize Complex.exp (-(2 * Complex.I) * (al : ℂ)) = E at *
  generalize Complex.exp (Complex.I * (al : ℂ) / 2) = u at *
  generalize Real.cos (c.thetaJN / 2) = cc at *
  generalize Real.sin (c.thetaJN / 2) = ss at *
  have hs1c : (ss : ℂ) ^ 2 + (cc : ℂ) ^ 2 = 1 := by exact_mod_cast hs1
  have hxc : (x : ℂ) = (cc : ℂ) ^ 2 - (ss : ℂ) ^ 2 := by rw [hcx]; push_cast; ring
  simp only [Prod.mk.injEq]
  push_cast
  rw [hxc]
  have e2 : h = H * n * K / 2 := by rw [hH]; ring
  rw [e2]
  have hq : (ss : ℂ) ^ 4 + (cc : ℂ) ^ 4 = (1 + ((cc : ℂ) ^ 2 - (ss : ℂ) ^ 2) ^ 2) / 2 := by
    linear_combination ((ss : ℂ) ^ 2 + (cc : ℂ) ^ 2 + 1) / 2 * hs1c
  have hr : (ss : ℂ) ^ 4 - (cc : ℂ) ^ 4 = -((cc : ℂ) ^ 2 - (ss : ℂ) ^ 2) := by
    linear_combination ((ss : ℂ) ^ 2 - (cc : ℂ) ^ 2) * hs1c
  constructor
  · rw [← hq]
    linear_combination (H * n * K / 2) * ((ss : ℂ) ^ 4 + (cc : ℂ) ^ 4) * hu
  · linear_combination (Complex.I * H * n * K / 2) * (((ss : ℂ) ^ 4 - (cc : ℂ) ^ 4) * hu + hr)

/-- without in-plane spins the transition frequencies are those of PhenomD -/
lemma tfP_aligned (Q : QNM) {m1 m2 : ℝ} (h2 : 0 < m2) (h : m2 ≤ m1) (s1 s2 : V3) :
    tfP Q m1 m2 s1 s2 0 = get_transition_frequencies Q (thetaP m1 m2 s1 s2) (get_coeffs (thetaP m1 m2 s1 s2) 5)
      (get_coeffs (thetaP m1 m2 s1 s2) 6) := by
  have h1 : 0 < m1 := lt_of_lt_of_le h2 h
  have hg := gt_pos
  have hs : Real.sqrt (1 - 4 * (m1 * m2 / ((m1 + m2) * (m1 + m2)))) = (m1 - m2) / (m1 + m2) := by
    rw [show 1 - 4 * (m1 * m2 / ((m1 + m2) * (m1 + m2))) = ((m1 - m2) / (m1 + m2)) ^ 2 by field_simp; ring]
    exact Real.sqrt_sq (div_nonneg (by linarith) (by linarith))
  have heta : m1 * m2 / ((m1 + m2) * (m1 + m2)) = m1 * gt * (m2 * gt) / (m1 * gt + m2 * gt) ^ 2 := by
    field_simp
  have hS : 0.5 * (1 + (m1 - m2) / (m1 + m2)) * (0.5 * (1 + (m1 - m2) / (m1 + m2))) * s1.2.2
      + 0.5 * (1 - (m1 - m2) / (m1 + m2)) * (0.5 * (1 - (m1 - m2) / (m1 + m2))) * s2.2.2 =
      (s1.2.2 * (m1 * gt) ^ 2 + s2.2.2 * (m2 * gt) ^ 2) / (m1 * gt + m2 * gt) ^ 2 := by
    norm_num
    field_simp
    ring
  have hfs : FinalSpin_inplane m1 m2 s1.2.2 s2.2.2 0 =
      FinalSpin0815_s (m1 * gt * (m2 * gt) / (m1 * gt + m2 * gt) ^ 2)
        ((s1.2.2 * (m1 * gt) ^ 2 + s2.2.2 * (m2 * gt) ^ 2) / (m1 * gt + m2 * gt) ^ 2) := by
    have hb : ∀ x : ℝ, Jnp.copysign1 x * Real.sqrt (0 + x * x) = x := fun x => by
      unfold Jnp.copysign1
      rw [zero_add, Real.sqrt_mul_self_eq_abs]
      split_ifs with hx
      · rw [abs_of_neg hx]; ring
      · rw [abs_of_nonneg (not_lt.1 hx)]; ring
    simp only [FinalSpin_inplane, zero_mul, hb]
    unfold FinalSpin0815
    simp only [hs, hS]
    rw [heta]
  have hfd : phP_get_fRD_fdamp Q m1 m2 s1.2.2 s2.2.2 0 = get_fRD_fdamp Q m1 m2 s1.2.2 s2.2.2 := by
    simp only [phP_get_fRD_fdamp, get_fRD_fdamp, hfs]
  simp only [tfP, phP_get_transition_frequencies, get_transition_frequencies, thetaP, hfd]
  congr

end Pv2
end Ripple

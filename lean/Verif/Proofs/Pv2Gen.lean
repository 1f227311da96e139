/-
  Helper lemmas about the PhenomPv2 generator: samplewise form, factorised twist.
-/
import Verif.Spec.Precession
import Verif.Props.Pv2Parts
import Verif.Props.Pv2Frame
import Verif.Proofs.PhenomDGen

namespace Ripple
namespace Pv2
open V3 PhenomD

/-- the parameter vector of `gen_IMRPhenomPv2` -/
def pars (m1 m2 : ℝ) (s1 s2 : V3) (D tc phiRef incl : ℝ) : List ℝ :=
  [m1, m2, s1.1, s1.2.1, s1.2.2, s2.1, s2.2.1, s2.2.2, D, tc, phiRef, incl]

/-- the aligned-spin parameters handed to PhenomD -/
def thetaP (m1 m2 : ℝ) (s1 s2 : V3) : Theta := ⟨m1, m2, s1.2.2, s2.2.2⟩

/-- transition frequencies of PhenomPv2 -/
noncomputable def tfP (Q : QNM) (m1 m2 : ℝ) (s1 s2 : V3) (chip : ℝ) : TransFreqs :=
  phP_get_transition_frequencies Q (thetaP m1 m2 s1 s2) (get_coeffs (thetaP m1 m2 s1 s2) 5)
    (get_coeffs (thetaP m1 m2 s1 s2) 6) chip

/-- the underlying aligned-spin waveform -/
noncomputable def hDs (Q : QNM) (m1 m2 : ℝ) (s1 s2 : V3) (chip phi_aligned D thr f : ℝ) : ℂ :=
  ((ampAt (thetaP m1 m2 s1 s2) (get_coeffs (thetaP m1 m2 s1 s2)) (tfP Q m1 m2 s1 s2 chip) D thr f
      / (2 * Real.sqrt (5 / (64 * PI))) : ℝ) : ℂ) *
    Complex.exp (-Complex.I * ((Phase f (thetaP m1 m2 s1 s2) (get_coeffs (thetaP m1 m2 s1 s2))
      (tfP Q m1 m2 s1 s2 chip) - 2 * phi_aligned : ℝ) : ℂ))

/-- harmonics -/
noncomputable def Ys (theta : ℝ) : Fin 5 → ℂ :=
  ![swsh theta 0 (-2), swsh theta 0 (-1), swsh theta 0 0, swsh theta 0 1, swsh theta 0 2]

/-- time alignment -/
noncomputable def t0P (Q : QNM) (m1 m2 : ℝ) (s1 s2 : V3) (chip : ℝ) : ℝ :=
  deriv (fun f => -Phase f (thetaP m1 m2 s1 s2) (get_coeffs (thetaP m1 m2 s1 s2)) (tfP Q m1 m2 s1 s2 chip))
    (tfP Q m1 m2 s1 s2 chip).f_RD / (2 * PI)

/-- time shift factors -/
noncomputable def corrP (Q : QNM) (m1 m2 : ℝ) (s1 s2 : V3) (chip tc f : ℝ) : ℂ :=
  ((Real.cos (2 * PI * f * t0P Q m1 m2 s1 s2 chip) : ℂ)
      - Complex.I * (Real.sin (2 * PI * f * t0P Q m1 m2 s1 s2 chip) : ℂ))
    * Complex.exp (-Complex.I * f * ((m2 + m1) * gt : ℝ) * tc)

/-- twisted-up polarisations before the final rotation -/
noncomputable def twP (Q : QNM) (m1 m2 : ℝ) (s1 s2 : V3) (D tc f_ref : ℝ) (c : Converted) (thr f : ℝ) : ℂ × ℂ :=
  let h := PhenomPCoreTwistUp f (hDs Q m1 m2 s1 s2 c.chip c.phi_aligned D thr f) (m2 * m1 / ((m2 + m1) * (m2 + m1)))
    s2.2.2 s1.2.2 c.chip (m2 + m1) (angP m1 m2 s1 s2 c.chip) (Ys c.thetaJN)
    (alphaS (angP m1 m2 s1 s2 c.chip) (PI * ((m2 + m1) * gt) * f_ref) - c.alpha0)
    (epsS (angP m1 m2 s1 s2 c.chip) (PI * ((m2 + m1) * gt) * f_ref))
  (h.1 * corrP Q m1 m2 s1 s2 c.chip tc f, h.2 * corrP Q m1 m2 s1 s2 c.chip tc f)

/-- final rotation -/
noncomputable def rotP (z : ℝ) (h : ℂ × ℂ) : ℂ × ℂ :=
  ((Real.cos (2 * z) : ℂ) * h.1 + (Real.sin (2 * z) : ℂ) * h.2,
    (Real.cos (2 * z) : ℂ) * h.2 - (Real.sin (2 * z) : ℂ) * h.1)

lemma genP_eq (Q : QNM) (grid : List ℝ) (m1 m2 : ℝ) (s1 s2 : V3) (D tc phiRef incl f_ref : ℝ) :
    gen_IMRPhenomPv2 Q grid (pars m1 m2 s1 s2 D tc phiRef incl) f_ref =
      .ok (grid.map fun f => (rotP (conv m2 m1 f_ref phiRef incl s2 s1).zeta_polariz
            (twP Q m1 m2 s1 s2 D tc f_ref (conv m2 m1 f_ref phiRef incl s2 s1)
              (cutThr grid (fM_CUT / Ms (thetaP m1 m2 s1 s2))) f)).1,
          grid.map fun f => (rotP (conv m2 m1 f_ref phiRef incl s2 s1).zeta_polariz
            (twP Q m1 m2 s1 s2 D tc f_ref (conv m2 m1 f_ref phiRef incl s2 s1)
              (cutThr grid (fM_CUT / Ms (thetaP m1 m2 s1 s2))) f)).2) := by
  unfold gen_IMRPhenomPv2 pars
  simp only []
  rw [C56_value _ _ (-2) (by norm_num), C56_value _ _ (-1) (by norm_num), C56_value _ _ 0 (by norm_num),
    C56_value _ _ 1 (by norm_num), C56_value _ _ 2 (by norm_num)]
  simp only [bind, Except.bind]
  congr 2
  all_goals
    simp only [PhenomPOneFrequency, Amp_eq, List.map_map, List.zipWith_self, List.zipWith_map_left,
      List.zipWith_map_right]
    refine List.map_congr_left fun f _ => ?_
    rfl

/-- the harmonics at zero azimuth are real -/
lemma Ys_val (theta : ℝ) :
    let n := Real.sqrt (5 / (4 * Real.pi))
    let c := Real.cos (theta / 2)
    let s := Real.sin (theta / 2)
    Ys theta = ![((n * s ^ 4 : ℝ) : ℂ), ((n * 2 * c * s ^ 3 : ℝ) : ℂ), ((n * Real.sqrt 6 * c ^ 2 * s ^ 2 : ℝ) : ℂ),
      ((n * 2 * c ^ 3 * s : ℝ) : ℂ), ((n * c ^ 4 : ℝ) : ℂ)] := by
  intro n c s
  obtain ⟨v1, v2, v3, v4, v5⟩ := swsh_val theta 0
  unfold Ys
  rw [v1, v2, v3, v4, v5]
  simp [n, c, s]

/-- algebraic core of the twist -/
lemma twist_core (u c s C S n r : ℂ) (hu : u ≠ 0) (hr : r ^ 2 = 6) :
    u ^ 2 * u ^ 2 * (c * c * c * c) * (n * S ^ 4) - u ^ 2 * 2 * (c * c * c) * s * (n * 2 * C * S ^ 3)
      + 1 * r * (s * s) * (c * c) * (n * r * C ^ 2 * S ^ 2) - 1 / u ^ 2 * 2 * c * (s * s * s) * (n * 2 * C ^ 3 * S)
      + 1 / u ^ 2 * (1 / u ^ 2) * (s * s * s * s) * (n * C ^ 4) = n * (c * u * S - s * u⁻¹ * C) ^ 4 := by
  field_simp
  linear_combination n * s ^ 2 * c ^ 2 * C ^ 2 * S ^ 2 * u ^ 4 * hr

lemma twist_core' (u c s C S n r : ℂ) (hu : u ≠ 0) (hr : r ^ 2 = 6) :
    1 / u ^ 2 * (1 / u ^ 2) * (s * s * s * s) * (n * S ^ 4) + 1 / u ^ 2 * 2 * c * (s * s * s) * (n * 2 * C * S ^ 3)
      + 1 * r * (s * s) * (c * c) * (n * r * C ^ 2 * S ^ 2) + u ^ 2 * 2 * (c * c * c) * s * (n * 2 * C ^ 3 * S)
      + u ^ 2 * u ^ 2 * (c * c * c * c) * (n * C ^ 4) = n * (s * u⁻¹ * S + c * u * C) ^ 4 := by
  field_simp
  linear_combination n * s ^ 2 * c ^ 2 * C ^ 2 * S ^ 2 * u ^ 4 * hr

/-- the two sums of `PhenomPCoreTwistUp` as functions of `exp(i alpha)`, the Wigner coefficients and the harmonics -/
noncomputable def sumT (E : ℂ) (c s : ℝ) (Y : Fin 5 → ℂ) : ℂ :=
  E * E * ((c * c * c * c : ℝ) : ℂ) * Y 0 - E * 2 * ((c * c * c : ℝ) : ℂ) * s * Y 1
    + 1 * (Real.sqrt 6 : ℂ) * ((s * s : ℝ) : ℂ) * ((c * c : ℝ) : ℂ) * Y 2
    - 1 / E * 2 * c * ((s * s * s : ℝ) : ℂ) * Y 3 + 1 / E * (1 / E) * ((s * s * s * s : ℝ) : ℂ) * Y 4

noncomputable def sumT' (E : ℂ) (c s : ℝ) (Y : Fin 5 → ℂ) : ℂ :=
  1 / E * (1 / E) * ((s * s * s * s : ℝ) : ℂ) * (starRingEnd ℂ) (Y 0)
    + 1 / E * 2 * c * ((s * s * s : ℝ) : ℂ) * (starRingEnd ℂ) (Y 1)
    + 1 * (Real.sqrt 6 : ℂ) * ((s * s : ℝ) : ℂ) * ((c * c : ℝ) : ℂ) * (starRingEnd ℂ) (Y 2)
    + E * 2 * ((c * c * c : ℝ) : ℂ) * s * (starRingEnd ℂ) (Y 3) + E * E * ((c * c * c * c : ℝ) : ℂ) * (starRingEnd ℂ) (Y 4)

lemma twist_unfold (f : ℝ) (h : ℂ) (eta chi1 chi2 chip M : ℝ) (a : AngCoeffs) (Y : Fin 5 → ℂ) (ao eo : ℝ) :
    let q := (1 + Real.sqrt (1 - 4 * eta) - 2 * eta) / (2 * eta)
    let w := WignerdCoefficients ((PI * (f * gt * M)) ^ ((1 : ℝ) / 3))
      (chi1 * (1 / (1 + q)) * (1 / (1 + q)) + chi2 * (q / (1 + q)) * (q / (1 + q))) eta
      (chip * (q / (1 + q) * (q / (1 + q))))
    let E := Complex.exp (Complex.I * ((alphaS a (PI * (f * gt * M)) - ao : ℝ) : ℂ))
    let e := Complex.exp (-(2 * Complex.I) * ((epsS a (PI * (f * gt * M)) - eo : ℝ) : ℂ)) * h / 2
    PhenomPCoreTwistUp f h eta chi1 chi2 chip M a Y ao eo =
      (e * (sumT E w.1 w.2 Y + sumT' E w.1 w.2 Y), e * (Complex.I * (sumT E w.1 w.2 Y - sumT' E w.1 w.2 Y))) := rfl

lemma twist_eq (f : ℝ) (h : ℂ) (eta chi1 chi2 chip M : ℝ) (a : AngCoeffs) (theta ao eo : ℝ) :
    let q := (1 + Real.sqrt (1 - 4 * eta) - 2 * eta) / (2 * eta)
    let w := WignerdCoefficients ((PI * (f * gt * M)) ^ ((1 : ℝ) / 3))
      (chi1 * (1 / (1 + q)) * (1 / (1 + q)) + chi2 * (q / (1 + q)) * (q / (1 + q))) eta
      (chip * (q / (1 + q) * (q / (1 + q))))
    let u := Complex.exp (Complex.I * ((alphaS a (PI * (f * gt * M)) - ao : ℝ) : ℂ) / 2)
    let e := Complex.exp (-(2 * Complex.I) * ((epsS a (PI * (f * gt * M)) - eo : ℝ) : ℂ)) * h / 2
    let n : ℂ := (Real.sqrt (5 / (4 * Real.pi)) : ℝ)
    let T := n * ((w.1 : ℂ) * u * (Real.sin (theta / 2) : ℝ) - (w.2 : ℂ) * u⁻¹ * (Real.cos (theta / 2) : ℝ)) ^ 4
    let T' := n * ((w.2 : ℂ) * u⁻¹ * (Real.sin (theta / 2) : ℝ) + (w.1 : ℂ) * u * (Real.cos (theta / 2) : ℝ)) ^ 4
    PhenomPCoreTwistUp f h eta chi1 chi2 chip M a (Ys theta) ao eo = (e * (T + T'), e * (Complex.I * (T - T'))) := by
  intro q w u e n T T'
  have hu : u ≠ 0 := Complex.exp_ne_zero _
  have hu2 : Complex.exp (Complex.I * ((alphaS a (PI * (f * gt * M)) - ao : ℝ) : ℂ)) = u ^ 2 := by
    simp only [u]
    rw [← Complex.exp_nat_mul]
    congr 1
    push_cast; ring
  have hr : ((Real.sqrt 6 : ℝ) : ℂ) ^ 2 = 6 := by
    rw [← Complex.ofReal_pow, Real.sq_sqrt (by norm_num)]; norm_num
  have h1 := twist_core u w.1 w.2 (Real.cos (theta / 2) : ℝ) (Real.sin (theta / 2) : ℝ) n (Real.sqrt 6 : ℝ) hu hr
  have h2 := twist_core' u w.1 w.2 (Real.cos (theta / 2) : ℝ) (Real.sin (theta / 2) : ℝ) n (Real.sqrt 6 : ℝ) hu hr
  have e1 : sumT (u ^ 2) w.1 w.2 (Ys theta) = T := by
    rw [show Ys theta = _ from Ys_val theta]
    simp only [sumT, T, Matrix.cons_val]
    rw [← h1]
    push_cast
    rfl
  have e2 : sumT' (u ^ 2) w.1 w.2 (Ys theta) = T' := by
    rw [show Ys theta = _ from Ys_val theta]
    simp only [sumT', T', Matrix.cons_val, Complex.conj_ofReal]
    rw [← h2]
    push_cast
    rfl
  rw [twist_unfold]
  simp only [hu2]
  rw [e1, e2]

end Pv2
end Ripple

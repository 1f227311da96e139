/-
  Properties C68 and C69: the post-Newtonian series inside IMRPhenomXAS against TaylorF2 (phase) and IMRPhenomD (amplitude).
  The specification is the textbook series of Verif/Spec/PN.lean.
-/
import Verif.Props.TaylorF2
import Verif.Props.XASPhase
import Verif.Model.PhenomD
import Mathlib.Analysis.Complex.ExponentialBounds
import Mathlib.Analysis.Real.Pi.Bounds

namespace Ripple
open XAS TaylorF2 Tidal

namespace Spec
/-- 3.5PN spin-spin tail terms kept by IMRPhenomXAS and left out by TaylorF2 -/
noncomputable def psi7SS (X1 X2 χ1 χ2 : ℝ) : ℝ :=
  -570 * Real.pi * (X1 * χ1) ^ 2 - 1100 * Real.pi * (X1 * χ1) * (X2 * χ2) - 570 * Real.pi * (X2 * χ2) ^ 2
/-- 3.5PN terms cubic in the spins, kept by IMRPhenomXAS and left out by TaylorF2 -/
noncomputable def psi7SSS (X1 X2 χ1 χ2 : ℝ) : ℝ :=
  (14245 / 24 + 85 / 6 * X1) * (X1 * χ1) ^ 3 + (14245 / 24 + 85 / 6 * X2) * (X2 * χ2) ^ 3
  + (14065 / 8 * X1 + 5 / 2 * X1 * X2) * X1 * X2 * χ1 ^ 2 * χ2 + (14065 / 8 * X2 + 5 / 2 * X1 * X2) * X1 * X2 * χ1 * χ2 ^ 2
/-- 4PN spin-orbit tail term; the full term is `psi8 * (3 log v - 1)` -/
noncomputable def psi8 (η δ χs χa : ℝ) : ℝ :=
  -(5 * Real.pi / 4536) * ((1263141 - 1588150 * η + 94344 * η ^ 2) * χs + (1263141 - 357066 * η) * δ * χa)
end Spec

namespace XAS

lemma delta_eq {m1 m2 : ℝ} (h2 : 0 < m2) (h : m2 ≤ m1) : Real.sqrt (1 - 4 * Spec.eta m1 m2) = Spec.delta m1 m2 := by
  unfold Spec.eta
  rw [sqrt_one_sub_four_eta (lt_of_lt_of_le h2 h) h2, abs_of_nonneg (by linarith)]
  rfl

end XAS

/-- Coefficient by coefficient, for every binary with m1 ≥ m2 and all spins: the IMRPhenomXAS phase series is the TaylorF2
    series without tides, with v³ = π f M absorbed into powers of π. -/
theorem C68_coefficients (theta : Theta) (h2 : 0 < theta.m2) (h : theta.m2 ≤ theta.m1) :
    let x := inspiral_phase_PN theta
    let t := get_PNPhasing_F2 theta.m1 theta.m2 theta.chi1 theta.chi2 0 0
    x.phi0 * t.p0 = t.p0 ∧ t.p0 ≠ 0 ∧ x.phi1 * t.p0 = t.p1 ∧
    x.phi2 * t.p0 = t.p2 * Real.pi ^ ((2 : ℝ) / 3) ∧
    x.phi3 * t.p0 = t.p3 * Real.pi ∧
    x.phi4 * t.p0 = t.p4 * Real.pi ^ ((4 : ℝ) / 3) ∧
    x.phi5L * t.p0 = t.l5 / 3 * Real.pi ^ ((5 : ℝ) / 3) ∧
    x.phi6 * t.p0 = (t.p6 + t.l6 * (Real.log Real.pi / 3)) * Real.pi ^ 2 ∧
    x.phi6L * t.p0 = t.l6 / 3 * Real.pi ^ 2 := by
  have h1 := lt_of_lt_of_le h2 h
  have hq : (get_quadparam_octparam 0).1 = 1 := (C75_black_holes 0 0 0).1
  have he : 0 < Spec.eta theta.m1 theta.m2 := by unfold Spec.eta; positivity
  have hl4 : Real.log 4 = 2 * Real.log 2 := by
    rw [show (4 : ℝ) = 2 ^ 2 by norm_num, Real.log_pow]; norm_num
  intro x t
  simp only [x, t, p0_eq h1 h2, p1_eq h1 h2, p2_eq h1 h2, p3_eq h1 h2, p4_eq h1 h2, l5_eq h1 h2, l6_eq h1 h2,
    p6_eq h1 h2, hq, inspiral_phase_PN, eta_s h1 h2, delta_eq h2 h, PI, Spec.psi2, Spec.psi3, Spec.psi4,
    Spec.psi4SS, Spec.psi5, Spec.psi6, Spec.psi6SS, hl4]
  refine ⟨by ring, by positivity, by ring, by ring, by ring, ?_, ?_, ?_, by ring⟩
  · generalize hN : 3 / (128 * Spec.eta theta.m1 theta.m2) = N
    generalize Real.pi ^ ((4 : ℝ) / 3) = P
    rw [eta_X h1 h2, delta_X h1 h2, X2_eq h1 h2]
    ring
  · generalize hN : 3 / (128 * Spec.eta theta.m1 theta.m2) = N
    generalize Real.pi ^ ((5 : ℝ) / 3) = P
    ring
  · generalize hN : 3 / (128 * Spec.eta theta.m1 theta.m2) = N
    generalize Real.log Real.pi = P
    rw [eta_X h1 h2, delta_X h1 h2, X2_eq h1 h2]
    ring

/-- At 3.5PN the non-spinning and spin-orbit parts agree; IMRPhenomXAS adds exactly the spin-spin tail and the terms cubic
    in the spins. -/
theorem C68_three_and_a_half (theta : Theta) (h2 : 0 < theta.m2) (h : theta.m2 ≤ theta.m1) :
    let t := get_PNPhasing_F2 theta.m1 theta.m2 theta.chi1 theta.chi2 0 0
    let X1 := theta.m1 / (theta.m1 + theta.m2)
    let X2 := theta.m2 / (theta.m1 + theta.m2)
    (inspiral_phase_PN theta).phi7 * t.p0 = (t.p7 + (Spec.psi7SS X1 X2 theta.chi1 theta.chi2 +
      Spec.psi7SSS X1 X2 theta.chi1 theta.chi2) * t.p0) * Real.pi ^ ((7 : ℝ) / 3) := by
  have h1 := lt_of_lt_of_le h2 h
  intro t X1 X2
  simp only [t, X1, X2, p0_eq h1 h2, p7_eq h1 h2, inspiral_phase_PN, eta_s h1 h2, delta_eq h2 h, PI, Spec.psi7, Spec.psi7SS,
    Spec.psi7SSS]
  generalize hN : 3 / (128 * Spec.eta theta.m1 theta.m2) = N
  generalize Real.pi ^ ((7 : ℝ) / 3) = P
  rw [eta_X h1 h2, delta_X h1 h2, X2_eq h1 h2]
  generalize theta.m1 / (theta.m1 + theta.m2) = X
  ring

/-- As functions of frequency: throughout its inspiral region the IMRPhenomXAS phase is minus the textbook TaylorF2 phase of
    black holes, up to a constant, the higher-order spin terms named above, and four fitted terms of order v^3 … v^6
    (4PN to 5.5PN relative to the leading order), with `s` independent of frequency. -/
theorem C68_phase (theta : Theta) (T : Table) (h2 : 0 < theta.m2) (h : theta.m2 ≤ theta.m1)
    (hf : fPhase1 theta < fPhase2 theta) :
    let X1 := theta.m1 / (theta.m1 + theta.m2)
    let X2 := theta.m2 / (theta.m1 + theta.m2)
    let η := Spec.eta theta.m1 theta.m2
    let δ := Spec.delta theta.m1 theta.m2
    let χs := (theta.chi1 + theta.chi2) / 2
    let χa := (theta.chi1 - theta.chi2) / 2
    let N := 3 / (128 * η)
    ∃ s : Fin 4 → ℝ, ∀ x : ℝ, 0 < x → x * ((theta.m1 + theta.m2) * gt) < fPhase1 theta →
      let v := (Real.pi * ((theta.m1 + theta.m2) * gt) * x) ^ ((1 : ℝ) / 3)
      Phase x theta T = -Spec.f2Phase theta.m1 theta.m2 theta.chi1 theta.chi2 0 0 1 1 x
        + N * Spec.psi5 η δ χs χa * (1 + Real.log Real.pi)
        - N * (Spec.psi7SS X1 X2 theta.chi1 theta.chi2 + Spec.psi7SSS X1 X2 theta.chi1 theta.chi2) * v ^ 2
        - N * Spec.psi8 η δ χs χa * (3 * Real.log v - 1) * v ^ 3
        + s 0 * v ^ 3 + s 1 * v ^ 4 + s 2 * v ^ 5 + s 3 * v ^ 6 := by
  have h1 := lt_of_lt_of_le h2 h
  have hg := gt_pos
  have hpi := Real.pi_pos
  have he : 0 < Spec.eta theta.m1 theta.m2 := by unfold Spec.eta; positivity
  intro X1 X2 η δ χs χa N
  obtain ⟨-, -, -, c2, c3, c4, c5, c6, cl6⟩ := C68_coefficients theta h2 h
  have c7 := C68_three_and_a_half theta h2 h
  have hq : (get_quadparam_octparam 0).1 = 1 := (C75_black_holes 0 0 0).1
  simp only [p0_eq h1 h2, p2_eq h1 h2, p3_eq h1 h2, p4_eq h1 h2, l5_eq h1 h2, l6_eq h1 h2, p6_eq h1 h2, p7_eq h1 h2, hq]
    at c2 c3 c4 c5 c6 cl6 c7
  set k := inspiral_phase_coeffs theta T with hk
  refine ⟨![dphase0 / η * k 0 / Real.pi, dphase0 / η * (3 / 4 * k 1) / Real.pi ^ ((4 : ℝ) / 3),
    dphase0 / η * (3 / 5 * k 2) / Real.pi ^ ((5 : ℝ) / 3), dphase0 / η * (1 / 2 * k 3) / Real.pi ^ 2], ?_⟩
  intro x hx hin v
  set y := x * ((theta.m1 + theta.m2) * gt) with hy
  have hyp : 0 < y := by positivity
  have eM : x * (theta.m1 * gt + theta.m2 * gt) = y := by rw [hy]; ring
  have hP : Phase x theta T = 1 / η * get_inspiral_phase y theta T := by
    unfold Phase
    simp only [f1_eq, f2_eq, eta_s h1 h2, eM]
    have a1 : Jnp.heaviside (fPhase1 theta - y) 0.5 = 1 := by
      unfold Jnp.heaviside; rw [if_neg (by linarith), if_neg (by linarith)]
    have a2 : Jnp.heaviside (y - fPhase1 theta) 0.5 = 0 := by
      unfold Jnp.heaviside; rw [if_pos (by linarith)]
    have a3 : Jnp.heaviside (y - fPhase2 theta) 0.5 = 0 := by
      unfold Jnp.heaviside; rw [if_pos (by linarith)]
    rw [a1, a2, a3]
    ring
  have hsplit := ins_split theta T hyp
  rw [← hk] at hsplit
  rw [hP, show get_inspiral_phase y theta T = tf2Phase theta y + (get_inspiral_phase y theta T - tf2Phase theta y) by ring,
    hsplit]
  have hN : (0 : ℝ) < 3 / (128 * Spec.eta theta.m1 theta.m2) := by positivity
  set p := Real.pi ^ ((1 : ℝ) / 3) with hp
  set w := y ^ ((1 : ℝ) / 3) with hw
  have hpp : 0 < p := Real.rpow_pos_of_pos hpi _
  have hwp : 0 < w := Real.rpow_pos_of_pos hyp _
  have hv : v = p * w := by
    change (Real.pi * ((theta.m1 + theta.m2) * gt) * x) ^ ((1 : ℝ) / 3) = _
    rw [show Real.pi * ((theta.m1 + theta.m2) * gt) * x = Real.pi * y by rw [hy]; ring, Real.mul_rpow hpi.le hyp.le]
  have e1 : ∀ (z : ℝ), 0 < z → ∀ n : ℕ, z ^ ((n : ℝ) / 3) = (z ^ ((1 : ℝ) / 3)) ^ n := fun z hz n => by
    rw [← Real.rpow_natCast, ← Real.rpow_mul hz.le]; congr 1; ring
  have e2 : ∀ (z : ℝ), 0 < z → z ^ (-((5 : ℝ) / 3)) = ((z ^ ((1 : ℝ) / 3)) ^ 5)⁻¹ := fun z hz => by
    rw [← e1 z hz 5, ← Real.rpow_neg hz.le]; norm_num
  have e3 : ∀ (z : ℝ), 0 < z → z = (z ^ ((1 : ℝ) / 3)) ^ 3 := fun z hz => by
    rw [← e1 z hz 3]; norm_num
  have e2p : Real.pi ^ (-((5 : ℝ) / 3)) = (p ^ 5)⁻¹ := e2 _ hpi
  have e2w : y ^ (-((5 : ℝ) / 3)) = (w ^ 5)⁻¹ := e2 _ hyp
  have q2 : Real.pi ^ ((2 : ℝ) / 3) = p ^ 2 := by exact_mod_cast e1 _ hpi 2
  have q4 : Real.pi ^ ((4 : ℝ) / 3) = p ^ 4 := by exact_mod_cast e1 _ hpi 4
  have q5 : Real.pi ^ ((5 : ℝ) / 3) = p ^ 5 := by exact_mod_cast e1 _ hpi 5
  have q7 : Real.pi ^ ((7 : ℝ) / 3) = p ^ 7 := by exact_mod_cast e1 _ hpi 7
  have q8 : Real.pi ^ ((8 : ℝ) / 3) = p ^ 8 := by exact_mod_cast e1 _ hpi 8
  have q3 : Real.pi = p ^ 3 := e3 _ hpi
  have r2 : y ^ ((2 : ℝ) / 3) = w ^ 2 := by exact_mod_cast e1 _ hyp 2
  have r4 : y ^ ((4 : ℝ) / 3) = w ^ 4 := by exact_mod_cast e1 _ hyp 4
  have r5 : y ^ ((5 : ℝ) / 3) = w ^ 5 := by exact_mod_cast e1 _ hyp 5
  have r7 : y ^ ((7 : ℝ) / 3) = w ^ 7 := by exact_mod_cast e1 _ hyp 7
  have r8 : y ^ ((8 : ℝ) / 3) = w ^ 8 := by exact_mod_cast e1 _ hyp 8
  have r3 : y = w ^ 3 := e3 _ hyp
  have hlv : 3 * Real.log v = Real.log Real.pi + Real.log y := by
    rw [hv, Real.log_mul hpp.ne' hwp.ne', hp, hw, Real.log_rpow hpi, Real.log_rpow hyp]; ring
  have hl4v : Real.log (4 * v) = Real.log 4 + Real.log v := Real.log_mul (by norm_num) (by rw [hv]; positivity)
  rw [q2] at c2
  rw [q4] at c4
  rw [q5] at c5
  rw [q7] at c7
  have d2 : (inspiral_phase_PN theta).phi2 = Spec.psi2 (Spec.eta theta.m1 theta.m2) * p ^ 2 :=
    mul_right_cancel₀ hN.ne' (by rw [c2]; ring)
  have d3 : (inspiral_phase_PN theta).phi3 = Spec.psi3 η δ χs χa * Real.pi :=
    mul_right_cancel₀ hN.ne' (by rw [c3]; ring)
  have d4 : (inspiral_phase_PN theta).phi4 = (Spec.psi4 η + Spec.psi4SS X1 X2 theta.chi1 theta.chi2 1 1) * p ^ 4 :=
    mul_right_cancel₀ hN.ne' (by rw [c4]; ring)
  have d5 : (inspiral_phase_PN theta).phi5L = Spec.psi5 η δ χs χa * p ^ 5 :=
    mul_right_cancel₀ hN.ne' (by rw [c5]; ring)
  have d6 : (inspiral_phase_PN theta).phi6 = (Spec.psi6 EulerGamma (Real.log 4) η δ χs χa
      + Spec.psi6SS X1 X2 theta.chi1 theta.chi2 1 1 - 6848 / 63 * Real.log Real.pi) * Real.pi ^ 2 :=
    mul_right_cancel₀ hN.ne' (by rw [c6]; ring)
  have d6l : (inspiral_phase_PN theta).phi6L = -(6848 / 63) * Real.pi ^ 2 :=
    mul_right_cancel₀ hN.ne' (by rw [cl6]; ring)
  have d7 : (inspiral_phase_PN theta).phi7 = (Spec.psi7 η δ χs χa + (Spec.psi7SS X1 X2 theta.chi1 theta.chi2 +
      Spec.psi7SSS X1 X2 theta.chi1 theta.chi2)) * p ^ 7 :=
    mul_right_cancel₀ hN.ne' (by rw [c7]; ring)
  have d8 : (inspiral_phase_PN theta).phi8 = Spec.psi8 η δ χs χa * (Real.log Real.pi - 1) * p ^ 8 := by
    simp only [inspiral_phase_PN, eta_s h1 h2, delta_eq h2 h, PI, Spec.psi8, q8, η, δ, χs, χa]; ring
  have d8l : (inspiral_phase_PN theta).phi8L = Spec.psi8 η δ χs χa * p ^ 8 := by
    simp only [inspiral_phase_PN, eta_s h1 h2, delta_eq h2 h, PI, Spec.psi8, q8, η, δ, χs, χa]; ring
  have d0 : (inspiral_phase_PN theta).phi0 = 1 := rfl
  have d1 : (inspiral_phase_PN theta).phi1 = 0 := rfl
  have d50 : (inspiral_phase_PN theta).phi5 = 0 := rfl
  obtain ⟨-, t10, t12, t13, -⟩ := C75_black_holes theta.m1 theta.m2 0
  have t14 : ∀ X, Spec.psi14 X 0 = 0 := fun X => by simp [Spec.psi14]
  have e6 : Spec.psi6 EulerGamma (Real.log 4 + Real.log v) η δ χs χa = Spec.psi6 EulerGamma (Real.log 4) η δ χs χa
      - 6848 / 63 * (3 * Real.log v) := by unfold Spec.psi6; ring
  have hvdef : (Real.pi * ((theta.m1 + theta.m2) * gt) * x) ^ ((1 : ℝ) / 3) = v := rfl
  unfold tf2Phase Spec.f2Phase dphase0
  simp only [PI, hvdef, t10, t12, t13, t14, d0, d1, d2, d3, d4, d5, d50, d6, d6l, d7, d8, d8l, hl4v, hlv, e2p, e2w,
    q4, q5, r2, r4, r5, r7, r8]
  change _ = -(3 / (128 * η * v ^ 5) * (1 + Spec.psi2 η * v ^ 2 + Spec.psi3 η δ χs χa * v ^ 3
    + (Spec.psi4 η + Spec.psi4SS X1 X2 theta.chi1 theta.chi2 1 1) * v ^ 4
    + Spec.psi5 η δ χs χa * (1 + (Real.log Real.pi + Real.log y)) * v ^ 5
    + (Spec.psi6 EulerGamma (Real.log 4 + Real.log v) η δ χs χa + Spec.psi6SS X1 X2 theta.chi1 theta.chi2 1 1) * v ^ 6
    + Spec.psi7 η δ χs χa * v ^ 7 + 0 * v ^ 10 + 0 * v ^ 12 + 0 * v ^ 13 + (0 + 0) * v ^ 14)) + _ - _ - _
    + _ / Real.pi * v ^ 3 + _ / p ^ 4 * v ^ 4 + _ / p ^ 5 * v ^ 5 + _ / Real.pi ^ 2 * v ^ 6
  rw [e6, hlv, hv]
  change 1 / η * (_ * (1 + _ + Spec.psi2 η * _ * _ + _ + _ + _ + _ + _ + _) + _) = _
  generalize Spec.psi2 η = a2
  generalize Spec.psi3 η δ χs χa = a3
  generalize Spec.psi4 η = a4
  generalize Spec.psi4SS X1 X2 theta.chi1 theta.chi2 1 1 = b4
  generalize Spec.psi5 η δ χs χa = a5
  generalize Spec.psi6 EulerGamma (Real.log 4) η δ χs χa = a6
  generalize Spec.psi6SS X1 X2 theta.chi1 theta.chi2 1 1 = b6
  generalize Spec.psi7 η δ χs χa = a7
  generalize Spec.psi7SS X1 X2 theta.chi1 theta.chi2 = b7
  generalize Spec.psi7SSS X1 X2 theta.chi1 theta.chi2 = b7'
  generalize Spec.psi8 η δ χs χa = a8
  generalize Real.log Real.pi = Lp
  generalize Real.log y = Ly
  have hη : 0 < η := he
  change _ = _ + 3 / (128 * η) * _ * _ - 3 / (128 * η) * _ * _ - 3 / (128 * η) * _ * _ * _ + _ + _ + _ + _
  clear_value η p w k
  clear d2 d3 d4 d5 d6 d6l d7 d8 d8l c2 c3 c4 c5 c6 cl6 c7
  generalize Real.pi = P at q3 ⊢
  rw [r3]
  subst q3
  generalize k 0 = k0
  generalize k 1 = k1
  generalize k 2 = k2
  generalize k 3 = k3
  field_simp
  ring

/-- a binary meeting the hypotheses of the coefficient theorems, with both spins present -/
example : ∃ theta : Theta, 0 < theta.m2 ∧ theta.m2 ≤ theta.m1 ∧ theta.chi1 ≠ 0 ∧ theta.chi2 ≠ 0 ∧
    (inspiral_phase_PN theta).phi8 ≠ (inspiral_phase_PN ⟨30, 30, 0, 0⟩).phi8 := by
  refine ⟨⟨30, 30, 1 / 2, 1 / 2⟩, by norm_num, by norm_num, by norm_num, by norm_num, ?_⟩
  have hp := Real.pi_pos
  have e : Spec.eta 30 30 = 1 / 4 := by unfold Spec.eta; norm_num
  have hs : Real.sqrt (1 - 4 * (1 / 4)) = 0 := by norm_num
  have hl : -1 + Real.log Real.pi ≠ 0 := by
    intro h
    have h3 : Real.log Real.pi = 1 := by linarith
    have := Real.exp_log hp
    rw [h3] at this
    have h4 := Real.exp_one_lt_d9
    have h5 := Real.pi_gt_three
    linarith
  have hr : Real.pi ^ ((8 : ℝ) / 3) ≠ 0 := (Real.rpow_pos_of_pos hp _).ne'
  simp only [inspiral_phase_PN, eta_s (m1 := 30) (m2 := 30) (by norm_num) (by norm_num), e, hs, PI]
  intro h
  have : Real.pi * ((-1 + Real.log Real.pi) * Real.pi ^ ((8 : ℝ) / 3)) = 0 := by linarith
  exact (mul_ne_zero hp.ne' (mul_ne_zero hl hr)) this

/-! ### C69 amplitude series -/

/-- Up to 2PN the amplitude series of IMRPhenomXAS and IMRPhenomD are the same for all masses and spins. -/
theorem C69_amplitude_2PN (theta : Theta) :
    (inspiral_Amp_PN theta).A0 = (PhenomD.get_inspiral_Amp_coeffs theta).A0 ∧
    (inspiral_Amp_PN theta).A2 = (PhenomD.get_inspiral_Amp_coeffs theta).A2 ∧
    (inspiral_Amp_PN theta).A3 = (PhenomD.get_inspiral_Amp_coeffs theta).A3 ∧
    (inspiral_Amp_PN theta).A4 = (PhenomD.get_inspiral_Amp_coeffs theta).A4 := by
  refine ⟨rfl, ?_, ?_, ?_⟩ <;> simp only [inspiral_Amp_PN, PhenomD.get_inspiral_Amp_coeffs] <;>
    generalize Real.sqrt _ = d <;> generalize (_ : ℝ) / (_ : ℝ) ^ 2 = e <;> ring

/-- Without spins the 2.5PN and 3PN terms agree as well. -/
theorem C69_amplitude_nonspinning (m1 m2 : ℝ) :
    inspiral_Amp_PN ⟨m1, m2, 0, 0⟩ = ⟨(PhenomD.get_inspiral_Amp_coeffs ⟨m1, m2, 0, 0⟩).A0,
      (PhenomD.get_inspiral_Amp_coeffs ⟨m1, m2, 0, 0⟩).A2, (PhenomD.get_inspiral_Amp_coeffs ⟨m1, m2, 0, 0⟩).A3,
      (PhenomD.get_inspiral_Amp_coeffs ⟨m1, m2, 0, 0⟩).A4, (PhenomD.get_inspiral_Amp_coeffs ⟨m1, m2, 0, 0⟩).A5,
      (PhenomD.get_inspiral_Amp_coeffs ⟨m1, m2, 0, 0⟩).A6⟩ := by
  simp only [inspiral_Amp_PN, PhenomD.get_inspiral_Amp_coeffs, AmpPN.mk.injEq]
  generalize Real.sqrt _ = d
  generalize (_ : ℝ) / (_ : ℝ) ^ 2 = e
  refine ⟨trivial, ?_, ?_, ?_, ?_, ?_⟩ <;> ring

/-- With spins the 2.5PN terms differ by exactly the term χ(1+3χ²)X³/8 of each body, the one describing absorption by
    the horizons, which IMRPhenomXAS includes and IMRPhenomD does not (m1 ≥ m2). -/
theorem C69_amplitude_difference (theta : Theta) (h2 : 0 < theta.m2) (h : theta.m2 ≤ theta.m1) :
    let X1 := theta.m1 / (theta.m1 + theta.m2)
    let X2 := theta.m2 / (theta.m1 + theta.m2)
    (inspiral_Amp_PN theta).A5 = (PhenomD.get_inspiral_Amp_coeffs theta).A5 +
      Real.pi ^ ((5 : ℝ) / 3) * (X1 ^ 3 * theta.chi1 * (1 + 3 * theta.chi1 ^ 2)
        + X2 ^ 3 * theta.chi2 * (1 + 3 * theta.chi2 ^ 2)) / 8 := by
  have h1 := lt_of_lt_of_le h2 h
  intro X1 X2
  simp only [inspiral_Amp_PN, PhenomD.get_inspiral_Amp_coeffs, X1, X2, eta_s h1 h2, delta_eq h2 h, PI]
  generalize Real.pi ^ ((5 : ℝ) / 3) = P
  generalize theta.chi1 = c1
  generalize theta.chi2 = c2
  rw [eta_X h1 h2, delta_X h1 h2, X2_eq h1 h2]
  generalize theta.m1 / (theta.m1 + theta.m2) = X
  ring

end Ripple

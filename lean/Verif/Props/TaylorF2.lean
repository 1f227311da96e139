/-
  Properties C37–C42 and the TaylorF2 parts of C35 and C49, C75 (textbook series), C77 (missing inclination).
  Throughout `gen_TaylorF2 grid params f_ref use_lambda_tildes` with
  params = [Mc, eta, chi1, chi2, lambda1, lambda2, D, tc, phic].
-/
import Verif.Proofs.TaylorF2
import Verif.Props.PhenomDGen

namespace Ripple
open TaylorF2 Tidal

/-- intrinsic parameters used by the generators that take (Mc, eta, chi1, chi2, l1, l2) -/
noncomputable def thetaTOf (Mc eta chi1 chi2 l1 l2 : ℝ) (b : Bool) : ThetaT :=
  let m := Mc_eta_to_ms Mc eta
  let l : ℝ × ℝ := if b then lambda_tildes_to_lambdas l1 l2 m.1 m.2 else (l1, l2)
  ⟨m.1, m.2, chi1, chi2, l.1, l.2⟩

lemma genF2_eq (grid : List ℝ) (Mc eta chi1 chi2 l1 l2 D tc phic : ℝ) (rest : List ℝ) (f_ref : ℝ) (b : Bool) :
    gen_TaylorF2 grid (Mc :: eta :: chi1 :: chi2 :: l1 :: l2 :: D :: tc :: phic :: rest) f_ref b =
      grid.map (f2strain (thetaTOf Mc eta chi1 chi2 l1 l2 b) D tc phic f_ref) := by
  set p := Mc :: eta :: chi1 :: chi2 :: l1 :: l2 :: D :: tc :: phic :: rest with hp
  have i0 : Jnp.index p 0 = Mc := Jnp.index_nat (i := 0) (by simp [hp])
  have i1 : Jnp.index p 1 = eta := Jnp.index_nat (i := 1) (by simp [hp])
  have i2 : Jnp.index p 2 = chi1 := Jnp.index_nat (i := 2) (by simp [hp])
  have i3 : Jnp.index p 3 = chi2 := Jnp.index_nat (i := 3) (by simp [hp])
  have i4 : Jnp.index p 4 = l1 := Jnp.index_nat (i := 4) (by simp [hp])
  have i5 : Jnp.index p 5 = l2 := Jnp.index_nat (i := 5) (by simp [hp])
  have i6 : Jnp.index p 6 = D := Jnp.index_nat (i := 6) (by simp [hp])
  have i7 : Jnp.index p 7 = tc := Jnp.index_nat (i := 7) (by simp [hp])
  have i8 : Jnp.index p 8 = phic := Jnp.index_nat (i := 8) (by simp [hp])
  unfold gen_TaylorF2
  simp only [i0, i1, i2, i3, i4, i5, i6, i7, i8, _gen_eq]
  rfl

section
variable (Mc eta chi1 chi2 l1 l2 D tc phic f_ref : ℝ) (b : Bool)

/-! ### C37 amplitude -/

theorem C37_amplitude (grid : List ℝ) (hMc : 0 < Mc) (he : 0 < eta) (he' : eta ≤ 1 / 4) (hD : 0 < D)
    (j : ℕ) (hj : j < grid.length) (hf : 0 < grid.getD j 0) :
    ‖(gen_TaylorF2 grid [Mc, eta, chi1, chi2, l1, l2, D, tc, phic] f_ref b).getD j 0‖ =
      Spec.newtonianAmp Mc D (grid.getD j 0) := by
  rw [genF2_eq, PhenomD.map_getElem hj]
  set x := grid.getD j 0
  have hm := C02_masses_ordered Mc eta hMc he he'
  have hr := C01_roundtrip_Mc_eta Mc eta hMc he he'
  have hm1 : 0 < (Mc_eta_to_ms Mc eta).1 := lt_of_lt_of_le hm.1 hm.2.1
  unfold f2strain
  rw [norm_mul, show -(Complex.I * ((f2phase (thetaTOf Mc eta chi1 chi2 l1 l2 b) tc phic f_ref x - PI / 4 : ℝ) : ℂ)) =
    ((-(f2phase (thetaTOf Mc eta chi1 chi2 l1 l2 b) tc phic f_ref x - PI / 4) : ℝ) : ℂ) * Complex.I by push_cast; ring,
    Complex.norm_exp_ofReal_mul_I, mul_one, f2amp_eq (theta := thetaTOf Mc eta chi1 chi2 l1 l2 b) hm1 hm.1 hf]
  have hgt := gt_pos
  have hmr := MRSUN_pos
  have hmpc := m_per_Mpc_pos
  have hpi := Real.pi_pos
  simp only [thetaTOf]
  have e1 : (Mc_eta_to_ms Mc eta).1 * (Mc_eta_to_ms Mc eta).2 /
      ((Mc_eta_to_ms Mc eta).1 + (Mc_eta_to_ms Mc eta).2) ^ 2 = eta := congrArg Prod.snd hr
  have e2 : (Mc_eta_to_ms Mc eta).1 + (Mc_eta_to_ms Mc eta).2 = Mc / eta ^ ((3 : ℝ) / 5) := by
    rw [Mc_eta_to_ms_eq hMc he]; ring
  rw [e1, e2]
  set k := eta ^ ((3 : ℝ) / 5) with hk
  have hkp : 0 < k := Real.rpow_pos_of_pos he _
  have e3 : (Mc / k * gt * x) ^ (-(7 / 6) : ℝ) = (Mc * gt * x) ^ (-(7 / 6) : ℝ) * eta ^ ((7 : ℝ) / 10) := by
    rw [show Mc / k * gt * x = (Mc * gt * x) * k⁻¹ by field_simp, Real.mul_rpow (by positivity) (by positivity)]
    congr 1
    rw [hk, ← Real.rpow_neg he.le, ← Real.rpow_mul he.le]
    norm_num
  have e4 : Real.sqrt eta * eta ^ ((7 : ℝ) / 10) = k * k := by
    rw [hk, Real.sqrt_eq_rpow, ← Real.rpow_add he, ← Real.rpow_add he]; norm_num
  have e5 : 0 ≤ Real.sqrt (5 / 24) * Real.pi ^ (-(2 / 3) : ℝ) * Real.sqrt eta * (Mc / k * MRSUN) * (Mc / k * gt) *
      (Mc / k * gt * x) ^ (-(7 / 6) : ℝ) / (D * m_per_Mpc) := by positivity
  rw [Complex.norm_real, Real.norm_eq_abs, abs_neg, abs_of_nonneg e5, e3, Spec.newtonianAmp]
  calc _ = Real.sqrt (5 / 24) * Real.pi ^ (-(2 / 3) : ℝ) * (Real.sqrt eta * eta ^ ((7 : ℝ) / 10)) * (Mc / k * MRSUN) *
        (Mc / k * gt) * (Mc * gt * x) ^ (-(7 / 6) : ℝ) / (D * m_per_Mpc) := by ring
    _ = _ := by rw [e4]; field_simp

/-- consequence: the power law -/
theorem C37_power_law (hMc : 0 < Mc) (he : 0 < eta) (he' : eta ≤ 1 / 4) (hD : 0 < D) (x k : ℝ) (hx : 0 < x) (hk : 0 < k) :
    ‖(gen_TaylorF2 [k * x] [Mc, eta, chi1, chi2, l1, l2, D, tc, phic] f_ref b).getD 0 0‖ =
      k ^ (-(7 / 6) : ℝ) * ‖(gen_TaylorF2 [x] [Mc, eta, chi1, chi2, l1, l2, D, tc, phic] f_ref b).getD 0 0‖ := by
  rw [C37_amplitude Mc eta chi1 chi2 l1 l2 D tc phic f_ref b _ hMc he he' hD 0 (by simp) (by simpa using by positivity),
    C37_amplitude Mc eta chi1 chi2 l1 l2 D tc phic f_ref b _ hMc he he' hD 0 (by simp) (by simpa using hx)]
  simp only [List.getD_cons_zero, Spec.newtonianAmp]
  have hgt := gt_pos
  rw [show Mc * gt * (k * x) = k * (Mc * gt * x) by ring, Real.mul_rpow hk.le (by positivity)]
  ring

example : ∃ Mc eta D x : ℝ, 0 < Mc ∧ 0 < eta ∧ eta ≤ 1 / 4 ∧ 0 < D ∧ 0 < x := ⟨1.2, 0.24, 100, 20, by norm_num⟩

/-! ### C38 covariance -/

theorem C38_time_phase (grid : List ℝ) (dt dphi : ℝ) (j : ℕ) (hj : j < grid.length) :
    (gen_TaylorF2 grid [Mc, eta, chi1, chi2, l1, l2, D, tc + dt, phic + dphi] f_ref b).getD j 0 =
      (gen_TaylorF2 grid [Mc, eta, chi1, chi2, l1, l2, D, tc, phic] f_ref b).getD j 0 *
        Complex.exp (-2 * Real.pi * Complex.I * (grid.getD j 0 : ℝ) * dt) * Complex.exp (2 * Complex.I * dphi) := by
  rw [genF2_eq, genF2_eq, PhenomD.map_getElem hj, PhenomD.map_getElem hj, f2strain, f2strain, f2phase_shift,
    mul_assoc (_ : ℂ) (Complex.exp _) (Complex.exp _), ← Complex.exp_add,
    mul_assoc (_ : ℂ) (Complex.exp _) (Complex.exp _), ← Complex.exp_add]
  congr 2
  simp only [PI]
  push_cast
  ring

theorem C38_distance (grid : List ℝ) (k : ℝ) (_hk : 0 < k) :
    gen_TaylorF2 grid [Mc, eta, chi1, chi2, l1, l2, k * D, tc, phic] f_ref b =
      (gen_TaylorF2 grid [Mc, eta, chi1, chi2, l1, l2, D, tc, phic] f_ref b).map fun h => h / (k : ℂ) := by
  rw [genF2_eq, genF2_eq, List.map_map]
  refine List.map_congr_left fun x _ => ?_
  simp only [Function.comp, f2strain]
  have : f2amp (thetaTOf Mc eta chi1 chi2 l1 l2 b) (k * D) x = f2amp (thetaTOf Mc eta chi1 chi2 l1 l2 b) D x / k := by
    unfold f2amp
    simp only
    rw [show k * D * m_per_Mpc = D * m_per_Mpc * k by ring, div_mul_eq_div_div]
    ring
  rw [this]
  push_cast
  ring

/-- At the reference frequency, with tc = phic = 0, the strain is minus its modulus times e^{iπ/4}. -/
theorem C38_reference_phase (grid : List ℝ) (hMc : 0 < Mc) (he : 0 < eta) (he' : eta ≤ 1 / 4) (hD : 0 < D)
    (j : ℕ) (hj : j < grid.length) (hf : grid.getD j 0 = f_ref) (h0 : 0 < f_ref) :
    (gen_TaylorF2 grid [Mc, eta, chi1, chi2, l1, l2, D, 0, 0] f_ref b).getD j 0 =
      -(Spec.newtonianAmp Mc D f_ref : ℂ) * Complex.exp (Complex.I * Real.pi / 4) := by
  have hn := C37_amplitude Mc eta chi1 chi2 l1 l2 D 0 0 f_ref b grid hMc he he' hD j hj (by rw [hf]; exact h0)
  rw [hf] at hn
  rw [← hn, genF2_eq, PhenomD.map_getElem hj, hf]
  have hph : f2phase (thetaTOf Mc eta chi1 chi2 l1 l2 b) 0 0 f_ref f_ref = 0 := by
    unfold f2phase
    simp only [ref_eq]
    rw [if_pos h0.ne']
    ring
  have hm := C02_masses_ordered Mc eta hMc he he'
  have hneg : f2amp (thetaTOf Mc eta chi1 chi2 l1 l2 b) D f_ref ≤ 0 := by
    have hgt := gt_pos
    have hmr := MRSUN_pos
    have hmpc := m_per_Mpc_pos
    have hpi := Real.pi_pos
    have h1 : 0 < (thetaTOf Mc eta chi1 chi2 l1 l2 b).m1 := lt_of_lt_of_le hm.1 hm.2.1
    have h2 : 0 < (thetaTOf Mc eta chi1 chi2 l1 l2 b).m2 := hm.1
    rw [f2amp_eq h1 h2 h0]
    exact neg_nonpos.2 (by positivity)
  unfold f2strain
  rw [hph, norm_mul, Complex.norm_real, Real.norm_eq_abs, abs_of_nonpos hneg,
    show -(Complex.I * ((0 - PI / 4 : ℝ) : ℂ)) = ((PI / 4 : ℝ) : ℂ) * Complex.I by push_cast; ring,
    Complex.norm_exp_ofReal_mul_I]
  simp only [PI]
  push_cast
  rw [show (Complex.I * (Real.pi : ℂ) / 4) = (Real.pi : ℂ) / 4 * Complex.I by ring]
  ring

/-! ### C75 the strain is the textbook 3.5PN stationary-phase waveform -/

/-- the complete strain, with quadrupole parameters from the universal relation -/
theorem C75_strain (grid : List ℝ) (hMc : 0 < Mc) (he : 0 < eta) (he' : eta ≤ 1 / 4) (hD : 0 < D)
    (hfr : 0 ≤ f_ref) (j : ℕ) (hj : j < grid.length) (hf : 0 < grid.getD j 0) :
    let m := Mc_eta_to_ms Mc eta
    let ψ : ℝ → ℝ := Spec.f2Phase m.1 m.2 chi1 chi2 l1 l2 (get_quadparam_octparam l1).1 (get_quadparam_octparam l2).1
    let ψref : ℝ := open Classical in if f_ref = 0 then 0 else ψ f_ref
    (gen_TaylorF2 grid [Mc, eta, chi1, chi2, l1, l2, D, tc, phic] f_ref false).getD j 0 =
      -(Spec.newtonianAmp Mc D (grid.getD j 0) : ℂ) * Complex.exp (-(Complex.I *
        ((ψ (grid.getD j 0) - ψref + 2 * Real.pi * grid.getD j 0 * tc - 2 * phic - Real.pi / 4 : ℝ) : ℂ))) := by
  intro m ψ ψref
  rw [← C37_amplitude Mc eta chi1 chi2 l1 l2 D tc phic f_ref false grid hMc he he' hD j hj hf,
    genF2_eq, PhenomD.map_getElem hj]
  set x := grid.getD j 0
  have hm := C02_masses_ordered Mc eta hMc he he'
  have h1 : 0 < m.1 := lt_of_lt_of_le hm.1 hm.2.1
  have h2 : 0 < m.2 := hm.1
  have hph : f2phase (thetaTOf Mc eta chi1 chi2 l1 l2 false) tc phic f_ref x =
      ψ x - ψref + 2 * Real.pi * x * tc - 2 * phic := by
    unfold f2phase
    simp only [ref_eq]
    have e1 : ∀ y, 0 < y → phasing_at (get_PNPhasing_F2 (thetaTOf Mc eta chi1 chi2 l1 l2 false).m1
        (thetaTOf Mc eta chi1 chi2 l1 l2 false).m2 (thetaTOf Mc eta chi1 chi2 l1 l2 false).chi1
        (thetaTOf Mc eta chi1 chi2 l1 l2 false).chi2 (thetaTOf Mc eta chi1 chi2 l1 l2 false).lambda1
        (thetaTOf Mc eta chi1 chi2 l1 l2 false).lambda2) (PI * (((thetaTOf Mc eta chi1 chi2 l1 l2 false).m1 +
        (thetaTOf Mc eta chi1 chi2 l1 l2 false).m2) * gt)) y = ψ y := fun y hy =>
      phasing_spec h1 h2 chi1 chi2 l1 l2 hy
    rw [e1 x hf]
    by_cases h0 : f_ref = 0
    · simp only [ψref, h0, ne_eq, not_true, if_true, if_false, PI]; ring
    · rw [if_pos h0, e1 f_ref (lt_of_le_of_ne hfr (Ne.symm h0))]
      simp only [ψref, h0, if_false, PI]; ring
  have hneg : f2amp (thetaTOf Mc eta chi1 chi2 l1 l2 false) D x ≤ 0 := by
    have hgt := gt_pos
    have hmr := MRSUN_pos
    have hmpc := m_per_Mpc_pos
    have hpi := Real.pi_pos
    rw [f2amp_eq (theta := thetaTOf Mc eta chi1 chi2 l1 l2 false) h1 h2 hf]
    have h1' : 0 < (thetaTOf Mc eta chi1 chi2 l1 l2 false).m1 := h1
    have h2' : 0 < (thetaTOf Mc eta chi1 chi2 l1 l2 false).m2 := h2
    exact neg_nonpos.2 (by positivity)
  unfold f2strain
  rw [hph, norm_mul, Complex.norm_real, Real.norm_eq_abs, abs_of_nonpos hneg,
    show ∀ z : ℝ, ‖Complex.exp (-(Complex.I * (z : ℂ)))‖ = 1 from fun z => by
      rw [show -(Complex.I * (z : ℂ)) = ((-z : ℝ) : ℂ) * Complex.I by push_cast; ring, Complex.norm_exp_ofReal_mul_I]]
  simp only [PI]
  push_cast
  ring

/-- for binary black holes the quadrupole parameters are one and the tidal terms vanish -/
theorem C75_black_holes (m1 m2 x : ℝ) :
    (get_quadparam_octparam 0).1 = 1 ∧
    Spec.psi10 m1 0 m2 0 = 0 ∧ Spec.psi12 m1 0 m2 0 = 0 ∧ Spec.psi13 m1 0 m2 0 = 0 ∧ Spec.psi14 x 0 = 0 := by
  refine ⟨?_, ?_, ?_, ?_, ?_⟩
  · simp [get_quadparam_octparam, _get_quadparam_octparam_low]
  · simp [Spec.psi10, Spec.lambdaTilde]
  · simp [Spec.psi12, Spec.lambdaTilde, Spec.deltaLambdaTilde]
  · simp [Spec.psi13, Spec.lambdaTilde]
  · simp [Spec.psi14]

/-- f_ref = 0 means no reference subtraction: for f_ref > 0 the strain is that for f_ref = 0 times the phase factor at
    the reference frequency. -/
theorem C38_no_reference (grid : List ℝ) (hMc : 0 < Mc) (he : 0 < eta) (he' : eta ≤ 1 / 4) (hD : 0 < D)
    (h0 : 0 < f_ref) (j : ℕ) (hj : j < grid.length) (hf : 0 < grid.getD j 0) :
    (gen_TaylorF2 grid [Mc, eta, chi1, chi2, l1, l2, D, tc, phic] f_ref false).getD j 0 =
      (gen_TaylorF2 grid [Mc, eta, chi1, chi2, l1, l2, D, tc, phic] 0 false).getD j 0 *
        Complex.exp (Complex.I * (Spec.f2Phase (Mc_eta_to_ms Mc eta).1 (Mc_eta_to_ms Mc eta).2 chi1 chi2 l1 l2
          (get_quadparam_octparam l1).1 (get_quadparam_octparam l2).1 f_ref : ℝ)) := by
  have e1 := C75_strain Mc eta chi1 chi2 l1 l2 D tc phic f_ref grid hMc he he' hD h0.le j hj hf
  have e0 := C75_strain Mc eta chi1 chi2 l1 l2 D tc phic 0 grid hMc he he' hD le_rfl j hj hf
  simp only [h0.ne', if_false] at e1
  simp only [if_true] at e0
  rw [e1, e0, mul_assoc (_ : ℂ) (Complex.exp _) (Complex.exp _), ← Complex.exp_add]
  congr 2
  push_cast
  ring

/-! ### C39 exchange symmetry -/

theorem C39_exchange_phasing (m1 m2 c1 c2 a1 a2 : ℝ) :
    get_PNPhasing_F2 m1 m2 c1 c2 a1 a2 = get_PNPhasing_F2 m2 m1 c2 c1 a2 a1 := by
  have e1 : m2 + m1 = m1 + m2 := add_comm _ _
  have e2 : m2 * gt + m1 * gt = m1 * gt + m2 * gt := add_comm _ _
  have e3 : m2 * gt * (m1 * gt) = m1 * gt * (m2 * gt) := mul_comm _ _
  ext <;> simp only [get_PNPhasing_F2, e1, e2, e3] <;> ring

theorem C39_exchange_strain (grid : List ℝ) (m1 m2 c1 c2 a1 a2 : ℝ) :
    _gen_TaylorF2 grid ⟨m1, m2, c1, c2, a1, a2⟩ D tc phic f_ref =
      _gen_TaylorF2 grid ⟨m2, m1, c2, c1, a2, a1⟩ D tc phic f_ref := by
  rw [_gen_eq, _gen_eq]
  refine List.map_congr_left fun x _ => ?_
  have e1 : f2amp ⟨m1, m2, c1, c2, a1, a2⟩ D x = f2amp ⟨m2, m1, c2, c1, a2, a1⟩ D x := by
    unfold f2amp
    simp only [add_comm m2 m1, mul_comm (m2 * gt) (m1 * gt)]
    ring
  have e2 : f2phase ⟨m1, m2, c1, c2, a1, a2⟩ tc phic f_ref x = f2phase ⟨m2, m1, c2, c1, a2, a1⟩ tc phic f_ref x := by
    unfold f2phase
    simp only [C39_exchange_phasing m1 m2 c1 c2 a1 a2, add_comm m2 m1]
  rw [f2strain, f2strain, e1, e2]

/-! ### C40 PhenomD against TaylorF2 -/

/-- coefficient by coefficient: the PhenomD coefficients times 3/(128 eta) are those of TaylorF2 without tides, except
    for the spin-spin part of the 3PN term, which PhenomD leaves out. -/
theorem C40_coefficients (theta : Theta) (h1 : 0 < theta.m1) (h2 : 0 < theta.m2) :
    let d := PhenomD.get_inspiral_phase_coeffs theta
    let t := get_PNPhasing_F2 theta.m1 theta.m2 theta.chi1 theta.chi2 0 0
    let N := 3 / (128 * Spec.eta theta.m1 theta.m2)
    t.p0 = d.phi0 * N ∧ t.p1 = d.phi1 * N ∧ t.p2 = d.phi2 * N ∧ t.p3 = d.phi3 * N ∧ t.p4 = d.phi4 * N ∧
    t.p5 = d.phi5 * N ∧ t.l5 = d.phi5_log * N ∧ t.l6 = d.phi6_log * N ∧ t.p7 = d.phi7 * N ∧
    t.p6 = (d.phi6 + Spec.psi6SS (theta.m1 / (theta.m1 + theta.m2)) (theta.m2 / (theta.m1 + theta.m2)) theta.chi1
      theta.chi2 1 1) * N := by
  have hq : (get_quadparam_octparam 0).1 = 1 := (C75_black_holes 0 0 0).1
  have hg := gt_pos
  have hX1 : theta.m1 * gt / (theta.m1 * gt + theta.m2 * gt) = theta.m1 / (theta.m1 + theta.m2) := by field_simp
  have hX2 : theta.m2 * gt / (theta.m1 * gt + theta.m2 * gt) = theta.m2 / (theta.m1 + theta.m2) := by field_simp
  intro d t N
  refine ⟨?_, ?_, ?_, ?_, ?_, ?_, ?_, ?_, ?_, ?_⟩ <;>
    simp only [d, t, N, PhenomD.get_inspiral_phase_coeffs, get_PNPhasing_F2, hX1, hX2, hq, eta_s h1 h2,
      get_3PNSOCoeff, get_5PNSOCoeff, get_6PNSOCoeff, get_7PNSOCoeff, get_4PNS1S2Coeff, get_4PNS1S2OCoeff,
      get_4PNQM2SOCoeff, get_4PNSelf2SOCoeff, get_4PNQM2SCoeff, get_4PNSelf2SCoeff, get_6PNS1S2OCoeff,
      get_6PNSelf2SCoeff, get_6PNQM2SCoeff, Spec.psi6SS] <;>
    rw [eta_X h1 h2, X2_eq h1 h2] <;> ring

/-- as functions of frequency -/
theorem C40_phase (theta : Theta) (h1 : 0 < theta.m1) (h2 : 0 < theta.m2) (x : ℝ) (hx : 0 < x) :
    PhenomD.phi_TF2 (x * (theta.m1 * gt + theta.m2 * gt)) theta =
      Spec.f2Phase theta.m1 theta.m2 theta.chi1 theta.chi2 0 0 1 1 x - Real.pi / 4
      - 3 / (128 * Spec.eta theta.m1 theta.m2) * Spec.psi6SS (theta.m1 / (theta.m1 + theta.m2))
          (theta.m2 / (theta.m1 + theta.m2)) theta.chi1 theta.chi2 1 1
        * (Real.pi * ((theta.m1 + theta.m2) * gt) * x) ^ ((1 : ℝ) / 3) := by
  have hq : (get_quadparam_octparam 0).1 = 1 := (C75_black_holes 0 0 0).1
  have hg := gt_pos
  have hpi := Real.pi_pos
  have hs := phasing_spec h1 h2 theta.chi1 theta.chi2 0 0 hx
  rw [hq] at hs
  rw [← hs]
  obtain ⟨c0, c1, c2, c3, c4, c5, cl5, cl6, c7, c6⟩ := C40_coefficients theta h1 h2
  have hu : 0 < Real.pi * ((theta.m1 + theta.m2) * gt) * x := by positivity
  unfold PhenomD.phi_TF2 phasing_at
  simp only [PI, eta_s h1 h2, Jnp.cbrt_of_nonneg hu.le, c0, c1, c2, c3, c4, c5, cl5, cl6, c7, c6,
    p10_eq h1 h2, p12_eq h1 h2, p13_eq h1 h2, p14_eq h1 h2, p15_eq h1 h2]
  obtain ⟨-, d10, d12, d13, -⟩ := C75_black_holes theta.m1 theta.m2 0
  have d14 : ∀ X, Spec.psi14 X 0 = 0 := fun X => by simp [Spec.psi14]
  rw [d10, d12, d13, d14, d14, show Real.pi * (x * (theta.m1 * gt + theta.m2 * gt)) =
    Real.pi * ((theta.m1 + theta.m2) * gt) * x by ring]
  set u := Real.pi * ((theta.m1 + theta.m2) * gt) * x
  set v := u ^ ((1 : ℝ) / 3) with hv
  have hvp : 0 < v := Real.rpow_pos_of_pos hu _
  have r5 : u ^ (-((5 : ℝ) / 3)) = (v ^ 5)⁻¹ := by
    rw [hv, ← Real.rpow_natCast, ← Real.rpow_mul hu.le, ← Real.rpow_neg hu.le]; norm_num
  have r4 : u ^ (-((4 : ℝ) / 3)) = (v ^ 4)⁻¹ := by
    rw [hv, ← Real.rpow_natCast, ← Real.rpow_mul hu.le, ← Real.rpow_neg hu.le]; norm_num
  have r3 : u ^ (-1 : ℤ) = (v ^ 3)⁻¹ := by
    rw [hv, ← Real.rpow_natCast, ← Real.rpow_mul hu.le]; norm_num
  have r2 : u ^ (-((2 : ℝ) / 3)) = (v ^ 2)⁻¹ := by
    rw [hv, ← Real.rpow_natCast, ← Real.rpow_mul hu.le, ← Real.rpow_neg hu.le]; norm_num
  have r1 : u ^ (-((1 : ℝ) / 3)) = v⁻¹ := by rw [hv, ← Real.rpow_neg hu.le]
  have r7 : u ^ ((2 : ℝ) / 3) = v ^ 2 := by
    rw [hv, ← Real.rpow_natCast, ← Real.rpow_mul hu.le]; norm_num
  rw [r5, r4, r3, r2, r1, r7]
  have he : 0 < Spec.eta theta.m1 theta.m2 := by unfold Spec.eta; positivity
  set d := PhenomD.get_inspiral_phase_coeffs theta
  generalize Spec.psi6SS (theta.m1 / (theta.m1 + theta.m2)) (theta.m2 / (theta.m1 + theta.m2)) theta.chi1
      theta.chi2 1 1 = s6
  generalize Real.log v = L
  field_simp
  ring

/-- for non-spinning binaries the two phases are the same function up to the constant −π/4 -/
theorem C40_nonspinning (m1 m2 : ℝ) (h1 : 0 < m1) (h2 : 0 < m2) (x : ℝ) (hx : 0 < x) :
    PhenomD.phi_TF2 (x * (m1 * gt + m2 * gt)) ⟨m1, m2, 0, 0⟩ =
      Spec.f2Phase m1 m2 0 0 0 0 1 1 x - Real.pi / 4 := by
  have := C40_phase ⟨m1, m2, 0, 0⟩ h1 h2 x hx
  simpa [Spec.psi6SS] using this

/-! ### C42 tidal coefficients -/

theorem C42_leading (m1 m2 c1 c2 a1 a2 : ℝ) (h2 : 0 < m2) (h12 : m2 ≤ m1) :
    let t := get_PNPhasing_F2 m1 m2 c1 c2 a1 a2
    let lt := lambdas_to_lambda_tildes a1 a2 m1 m2
    t.p10 = -(39 / 2) * lt.1 * t.p0 ∧ t.p13 = -Real.pi * t.p10 ∧ t.p15 = 0 ∧
    t.p12 = (-(3115 / 64) * lt.1 + 6595 / 364 * ((m1 - m2) / (m1 + m2)) * lt.2) * t.p0 := by
  have h1 : 0 < m1 := lt_of_lt_of_le h2 h12
  intro t lt
  have hl : lt.1 = Spec.lambdaTilde m1 a1 m2 a2 := C04_lambda_tilde_physical a1 a2 m1 m2 h2 h12
  have hd : lt.2 = Spec.deltaLambdaTilde m1 a1 m2 a2 := by
    simp only [lt, lambdas_to_lambda_tildes, ms_to_Mc_eta, rpow_half, sqrt_one_sub_four_eta h1 h2,
      abs_of_nonneg (sub_nonneg.2 h12), Spec.deltaLambdaTilde, Spec.eta, Spec.delta]
  rw [hl, hd]
  simp only [t, p0_eq h1 h2, p10_eq h1 h2, p13_eq h1 h2, p12_eq h1 h2, p15_eq h1 h2, Spec.psi10, Spec.psi13, Spec.psi12,
    Spec.delta]
  refine ⟨trivial, by ring, trivial, trivial⟩

theorem C42_linear (m1 m2 c1 c2 a1 a2 b1 b2 s t : ℝ) :
    let P := fun x y => get_PNPhasing_F2 m1 m2 c1 c2 x y
    (P (s * a1 + t * b1) (s * a2 + t * b2)).p10 = s * (P a1 a2).p10 + t * (P b1 b2).p10 ∧
    (P (s * a1 + t * b1) (s * a2 + t * b2)).p12 = s * (P a1 a2).p12 + t * (P b1 b2).p12 ∧
    (P (s * a1 + t * b1) (s * a2 + t * b2)).p13 = s * (P a1 a2).p13 + t * (P b1 b2).p13 ∧
    (P (s * a1 + t * b1) (s * a2 + t * b2)).p14 = s * (P a1 a2).p14 + t * (P b1 b2).p14 ∧
    (P (s * a1 + t * b1) (s * a2 + t * b2)).p15 = s * (P a1 a2).p15 + t * (P b1 b2).p15 ∧
    (P 0 0).p10 = 0 ∧ (P 0 0).p12 = 0 ∧ (P 0 0).p13 = 0 ∧ (P 0 0).p14 = 0 ∧ (P 0 0).p15 = 0 := by
  simp only [get_PNPhasing_F2]
  refine ⟨?_, ?_, ?_, ?_, ?_, ?_, ?_, ?_, ?_, ?_⟩ <;> ring

/-! ### C35, C49, C77 (TaylorF2 part) -/

theorem C35_TaylorF2 (grid : List ℝ) (iota : ℝ) :
    let h := gen_TaylorF2 grid [Mc, eta, chi1, chi2, l1, l2, D, tc, phic] f_ref b
    gen_TaylorF2_hphc grid [Mc, eta, chi1, chi2, l1, l2, D, tc, phic, iota] f_ref b =
      (h.map fun z => (((1 + Real.cos iota ^ 2) / 2 : ℝ) : ℂ) * z,
       h.map fun z => -(Complex.I * z * (Real.cos iota : ℂ))) := by
  have i7 : Jnp.index [Mc, eta, chi1, chi2, l1, l2, D, tc, phic, iota] (-1) = iota := by
    rw [Jnp.index_last (by simp)]; simp
  have hg : gen_TaylorF2 grid [Mc, eta, chi1, chi2, l1, l2, D, tc, phic, iota] f_ref b =
      gen_TaylorF2 grid [Mc, eta, chi1, chi2, l1, l2, D, tc, phic] f_ref b := by rw [genF2_eq, genF2_eq]
  intro h
  unfold gen_TaylorF2_hphc
  simp only [i7, hg]
  congr 1
  · refine List.map_congr_left fun z _ => ?_
    push_cast; ring
  · refine List.map_congr_left fun z _ => ?_
    ring

/-- Without the inclination (nine parameters) nothing fails: the last parameter, phic, is used as the inclination. -/
theorem C77_TaylorF2 (grid : List ℝ) :
    gen_TaylorF2_hphc grid [Mc, eta, chi1, chi2, l1, l2, D, tc, phic] f_ref b =
      gen_TaylorF2_hphc grid [Mc, eta, chi1, chi2, l1, l2, D, tc, phic, phic] f_ref b := by
  have i7 : Jnp.index [Mc, eta, chi1, chi2, l1, l2, D, tc, phic, phic] (-1) = phic := by
    rw [Jnp.index_last (by simp)]; simp
  have i7' : Jnp.index [Mc, eta, chi1, chi2, l1, l2, D, tc, phic] (-1) = phic := by
    rw [Jnp.index_last (by simp)]; simp
  unfold gen_TaylorF2_hphc
  simp only [i7, i7']
  rw [genF2_eq, genF2_eq]

lemma thetaTOf_tildes (hMc : 0 < Mc) (he : 0 < eta) (he' : eta ≤ 1 / 4) (hs : eta ≠ Spec.etaSingular) :
    let m := Mc_eta_to_ms Mc eta
    let lt := lambdas_to_lambda_tildes l1 l2 m.1 m.2
    thetaTOf Mc eta chi1 chi2 lt.1 lt.2 true = thetaTOf Mc eta chi1 chi2 l1 l2 false := by
  intro m lt
  have hm := C02_masses_ordered Mc eta hMc he he'
  have h1 : 0 < m.1 := lt_of_lt_of_le hm.1 hm.2.1
  have hr : m.1 * m.2 / (m.1 + m.2) ^ 2 = eta := congrArg Prod.snd (C01_roundtrip_Mc_eta Mc eta hMc he he')
  have := C05_roundtrip l1 l2 m.1 m.2 h1 hm.1 (by rw [hr]; exact hs)
  simp only [thetaTOf, if_true, Bool.false_eq_true, if_false]
  rw [this]

theorem C49_TaylorF2 (grid : List ℝ) (hMc : 0 < Mc) (he : 0 < eta) (he' : eta ≤ 1 / 4) (hs : eta ≠ Spec.etaSingular) :
    let m := Mc_eta_to_ms Mc eta
    let lt := lambdas_to_lambda_tildes l1 l2 m.1 m.2
    gen_TaylorF2 grid [Mc, eta, chi1, chi2, lt.1, lt.2, D, tc, phic] f_ref true =
      gen_TaylorF2 grid [Mc, eta, chi1, chi2, l1, l2, D, tc, phic] f_ref false := by
  intro m lt
  rw [genF2_eq, genF2_eq, thetaTOf_tildes Mc eta chi1 chi2 l1 l2 hMc he he' hs]

example : (0 : ℝ) < 1.2 ∧ (0 : ℝ) < 0.24 ∧ (0.24 : ℝ) ≤ 1 / 4 ∧ (0.24 : ℝ) ≠ Spec.etaSingular := by
  unfold Spec.etaSingular; norm_num

end
end Ripple

/-
  Property C100: the inspiral amplitudes are the stationary-phase amplitudes of the (2,2) mode.
-/
import Verif.Proofs.Mode22Amp
import Verif.Props.F2vsD
import Verif.Props.XASPN
import Verif.Props.XASPos
import Verif.Props.QNM

namespace Ripple
open Filter Topology Asymptotics Mode22 TaylorF2

/-- modulus of a PhenomD strain sample over the Newtonian modulus -/
noncomputable def relAmpD (q : QNM) (Mc eta chi1 chi2 D tc phic f_ref f : ℝ) : ℝ :=
  ‖(PhenomD.gen_IMRPhenomD q [f] [Mc, eta, chi1, chi2, D, tc, phic] f_ref).getD 0 0‖ /
    (C * gt / MRSUN * Spec.newtonianAmp Mc D f)
/-- modulus of a PhenomXAS strain sample over the Newtonian modulus -/
noncomputable def relAmpX (Mc eta chi1 chi2 D tc phic f_ref f : ℝ) : ℝ :=
  ‖(XAS.gen_IMRPhenomXAS [f] [Mc, eta, chi1, chi2, D, tc, phic] f_ref).getD 0 0‖ /
    (C * gt / MRSUN * Spec.newtonianAmp Mc D f)

section
variable (Mc eta chi1 chi2 D tc phic f_ref : ℝ)

lemma newton_pos (hMc : 0 < Mc) (hD : 0 < D) {f : ℝ} (hf : 0 < f) : 0 < Spec.newtonianAmp Mc D f := by
  have := gt_pos
  have := MRSUN_pos
  have := m_per_Mpc_pos
  have := Real.pi_pos
  unfold Spec.newtonianAmp
  positivity

lemma relAmpD_series (q : QNM) (hq : q.Shipped) (hMc : 0 < Mc) (he : 0 < eta) (he' : eta ≤ 1 / 4) (h1 : |chi1| ≤ 1)
    (h2 : |chi2| ≤ 1) (hD : 0 < D) :
    let th := thetaOf Mc eta chi1 chi2
    let c := PhenomD.get_coeffs th
    let p := PhenomD.get_inspiral_Amp_coeffs th
    ∀ᶠ f in 𝓝[>] 0, let v := (Real.pi * ((th.m1 + th.m2) * gt) * f) ^ ((1 : ℝ) / 3)
      relAmpD q Mc eta chi1 chi2 D tc phic f_ref f = |1 + p.A2 / Real.pi ^ ((2 : ℝ) / 3) * v ^ 2 + p.A3 / Real.pi * v ^ 3
        + p.A4 / Real.pi ^ ((4 : ℝ) / 3) * v ^ 4 + p.A5 / Real.pi ^ ((5 : ℝ) / 3) * v ^ 5 + p.A6 / Real.pi ^ 2 * v ^ 6
        + c 0 / Real.pi ^ ((7 : ℝ) / 3) * v ^ 7 + c 1 / Real.pi ^ ((8 : ℝ) / 3) * v ^ 8 + c 2 / Real.pi ^ 3 * v ^ 9| := by
  intro th c p
  have hp := thetaOf_physical (chi1 := chi1) (chi2 := chi2) hMc he he' h1 h2
  obtain ⟨a3, a34, a4R, aR, -, -, -, -⟩ := C74_amplitude_regions_ordered q hq _ hp
  filter_upwards [Ioo_mem_nhdsGT a3] with x hx
  have hx4 := hx.2.trans a34
  have hxc := hx4.trans (lt_of_le_of_lt a4R aR)
  have e := C41_inspiral q Mc eta chi1 chi2 D tc phic f_ref hMc he he' hD [x] (by simp)
    (by intro y hy; rw [List.mem_singleton] at hy; rw [hy]; exact hxc) 0 (by simp) hx.1 hx.2 hx4 0 0 0 0 0 true
  rw [C37_amplitude Mc eta chi1 chi2 0 0 D 0 0 0 true [x] hMc he he' hD 0 (by simp) (by simpa using hx.1)] at e
  simp only [List.getD_cons_zero] at e
  intro v
  have hn := newton_pos Mc D hMc hD hx.1
  have hk : 0 < C * gt / MRSUN := div_pos (mul_pos C_pos gt_pos) MRSUN_pos
  unfold relAmpD
  rw [e, mul_div_cancel_left₀ _ (mul_pos hk hn).ne']
  exact congrArg _ (series_v hp.m1_pos hp.m2_pos hx.1 p.A2 p.A3 p.A4 p.A5 p.A6 (c 0) (c 1) (c 2))

lemma relAmpX_series (hMc : 0 < Mc) (he : 0 < eta) (he' : eta ≤ 1 / 4) (h1 : |chi1| ≤ 1)
    (h2 : |chi2| ≤ 1) (hD : 0 < D) :
    let th := thetaOf Mc eta chi1 chi2
    let c := XAS.inspiral_Amp_rho (XAS.inspiral_Amp_nodes th) (XAS.inspiral_Amp_values th XAS.PhenomX_amp_coeff_table)
    let p := XAS.inspiral_Amp_PN th
    ∀ᶠ f in 𝓝[>] 0, let v := (Real.pi * ((th.m1 + th.m2) * gt) * f) ^ ((1 : ℝ) / 3)
      relAmpX Mc eta chi1 chi2 D tc phic f_ref f = |1 + p.A2 / Real.pi ^ ((2 : ℝ) / 3) * v ^ 2 + p.A3 / Real.pi * v ^ 3
        + p.A4 / Real.pi ^ ((4 : ℝ) / 3) * v ^ 4 + p.A5 / Real.pi ^ ((5 : ℝ) / 3) * v ^ 5 + p.A6 / Real.pi ^ 2 * v ^ 6
        + c 0 / Real.pi ^ ((7 : ℝ) / 3) * v ^ 7 + c 1 / Real.pi ^ ((8 : ℝ) / 3) * v ^ 8 + c 2 / Real.pi ^ 3 * v ^ 9| := by
  intro th c p
  have hp : th.Physical := thetaOf_physical (chi1 := chi1) (chi2 := chi2) hMc he he' h1 h2
  obtain ⟨-, -, -, ⟨hIN, hPk, -, -⟩, -⟩ := C92_regions_ordered th hp
  have hg := gt_pos
  have hM : 0 < (th.m1 + th.m2) * gt := by have := hp.m1_pos; have := hp.m2_pos; positivity
  have hm := C02_masses_ordered Mc eta hMc he he'
  have hIN0 : 0 < XAS.ampMatchIN th := lt_trans (by norm_num) hIN
  filter_upwards [Ioo_mem_nhdsGT (div_pos hIN0 hM)] with x hx
  have hx' : x * ((th.m1 + th.m2) * gt) < XAS.ampMatchIN th := (lt_div_iff₀ hM).1 hx.2
  intro v
  have hn := newton_pos Mc D hMc hD hx.1
  have hk : 0 < C * gt / MRSUN := div_pos (mul_pos C_pos gt_pos) MRSUN_pos
  unfold relAmpX
  rw [genX_norm [x] Mc eta chi1 chi2 D tc phic f_ref 0 (by simp)]
  simp only [List.getD_cons_zero]
  have eN : C * gt / MRSUN * Spec.newtonianAmp Mc D x = PhenomD.get_Amp0 (x * (th.m1 * gt + th.m2 * gt))
      (th.m1 * gt * (th.m2 * gt) / (th.m1 * gt + th.m2 * gt) ^ 2) * (2 * Real.sqrt (5 / (64 * PI)))
      * (th.m1 * gt + th.m2 * gt) ^ 2 / (D * m_per_Mpc / C) := by
    rw [amp0_newton (m1 := th.m1) (m2 := th.m2) hp.m1_pos hp.m2_pos D hx.1]
    have := C37_amplitude Mc eta chi1 chi2 0 0 D 0 0 0 true [x] hMc he he' hD 0 (by simp) (by simpa using hx.1)
    rw [genF2_eq, PhenomD.map_getElem (by simp)] at this
    simp only [List.getD_cons_zero] at this
    have hn' : ∀ p : ℝ, ‖Complex.exp (-(Complex.I * (p : ℂ)))‖ = 1 := fun p => by
      rw [show -(Complex.I * (p : ℂ)) = ((-p : ℝ) : ℂ) * Complex.I by push_cast; ring]
      exact Complex.norm_exp_ofReal_mul_I _
    rw [TaylorF2.f2strain, norm_mul, hn', mul_one, Complex.norm_real, Real.norm_eq_abs,
      TaylorF2.f2amp_eq (theta := thetaTOf Mc eta chi1 chi2 0 0 true) hp.m1_pos hp.m2_pos hx.1, abs_neg,
      abs_of_nonneg (by
        have := hp.m1_pos; have := hp.m2_pos; have := MRSUN_pos; have := m_per_Mpc_pos; have := Real.pi_pos
        have := hx.1
        simp only [thetaTOf]
        positivity)] at this
    rw [← this]
    rfl
  have eA : XAS.Amp x th XAS.PhenomX_amp_coeff_table D = C * gt / MRSUN * Spec.newtonianAmp Mc D x *
      XAS.get_inspiral_Amp (x * ((th.m1 + th.m2) * gt)) th XAS.PhenomX_amp_coeff_table := by
    rw [eN]
    unfold XAS.Amp PhenomD.get_Amp0
    simp only
    rw [show th.m1 * gt + th.m2 * gt = (th.m1 + th.m2) * gt by ring,
      Jnp.heaviside_pos (x := XAS.ampMatchIN th - x * ((th.m1 + th.m2) * gt)) (by linarith),
      Jnp.heaviside_neg (x := x * ((th.m1 + th.m2) * gt) - XAS.ampMatchIN th) (by linarith),
      Jnp.heaviside_neg (x := x * ((th.m1 + th.m2) * gt) - _) (by
        change x * ((th.m1 + th.m2) * gt) - XAS.ampPeak th XAS.PhenomX_amp_coeff_table < 0
        linarith), Real.sqrt_eq_rpow (2 * _ / 3), show ∀ e : ℝ, 2 * e / 3 = 2 / 3 * e from fun e => by ring]
    ring
  rw [show thetaOf Mc eta chi1 chi2 = th from rfl, eA, abs_mul, abs_of_pos (mul_pos hk hn),
    mul_div_cancel_left₀ _ (mul_pos hk hn).ne']
  exact congrArg _ (series_v hp.m1_pos hp.m2_pos hx.1 p.A2 p.A3 p.A4 p.A5 p.A6 (c 0) (c 1) (c 2))

/-! ### series coefficients -/

lemma pnD (theta : Theta) (h2 : 0 < theta.m2) (h : theta.m2 ≤ theta.m1) :
    let p := PhenomD.get_inspiral_Amp_coeffs theta
    let η := Spec.eta theta.m1 theta.m2
    let δ := Spec.delta theta.m1 theta.m2
    let c1 := theta.chi1
    let c2 := theta.chi2
    p.A2 / Real.pi ^ ((2 : ℝ) / 3) = (-969 + 1804 * η) / 672 ∧
    p.A3 / Real.pi = (c1 * (81 * (1 + δ) - 44 * η) + c2 * (81 * (1 - δ) - 44 * η)) / 48 ∧
    p.A4 / Real.pi ^ ((4 : ℝ) / 3) = (-27312085 - 10287648 * (c1 ^ 2 * (1 + δ) + c2 ^ 2 * (1 - δ)) + 24 *
      (-1975055 + 857304 * c1 ^ 2 - 994896 * c1 * c2 + 857304 * c2 ^ 2) * η + 35371056 * η ^ 2) / 8128512 ∧
    p.A5 / Real.pi ^ ((5 : ℝ) / 3) = (c2 * (285197 * (1 - δ) - 4 * (91902 - 1579 * δ) * η - 35632 * η ^ 2)
      + c1 * (285197 * (1 + δ) - 4 * (91902 + 1579 * δ) * η - 35632 * η ^ 2) + 42840 * (-1 + 4 * η) * Real.pi) / 32256 ∧
    p.A6 / Real.pi ^ 2 = (336 * (-3248849057 + 2943675504 * c1 ^ 2 - 3339284256 * c1 * c2 + 2943675504 * c2 ^ 2) * η ^ 2
      + 324322727232 * η ^ 3 + 7 * (-177520268561 + 107414046432 * (c2 ^ 2 * (1 - δ) + c1 ^ 2 * (1 + δ))
      + 11087290368 * (c1 * (1 + δ) + c2 * (1 - δ)) * Real.pi) - 12 * η * (-545384828789 - 176491177632 * c1 * c2
      + 77616 * c1 ^ 2 * (2610335 + 995766 * δ) + 77616 * c2 ^ 2 * (2610335 - 995766 * δ)
      + 5841690624 * (c1 + c2) * Real.pi + 21384760320 * Real.pi ^ 2)) / 60085960704 := by
  have h1 := lt_of_lt_of_le h2 h
  have hpi := Real.pi_pos
  intro p η δ c1 c2
  simp only [p, η, δ, c1, c2, PhenomD.get_inspiral_Amp_coeffs, eta_s h1 h2, XAS.delta_eq h2 h, PI]
  refine ⟨?_, ?_, ?_, ?_, ?_⟩
  all_goals
    rw [div_eq_iff (by positivity)]
    ring

lemma pnX (theta : Theta) (h2 : 0 < theta.m2) (h : theta.m2 ≤ theta.m1) :
    let p := XAS.inspiral_Amp_PN theta
    let η := Spec.eta theta.m1 theta.m2
    let δ := Spec.delta theta.m1 theta.m2
    let c1 := theta.chi1
    let c2 := theta.chi2
    p.A2 / Real.pi ^ ((2 : ℝ) / 3) = (-969 + 1804 * η) / 672 ∧
    p.A3 / Real.pi = (c1 * (81 * (1 + δ) - 44 * η) + c2 * (81 * (1 - δ) - 44 * η)) / 48 ∧
    p.A4 / Real.pi ^ ((4 : ℝ) / 3) = (-27312085 - 10287648 * (c1 ^ 2 * (1 + δ) + c2 ^ 2 * (1 - δ)) + 24 *
      (-1975055 + 857304 * c1 ^ 2 - 994896 * c1 * c2 + 857304 * c2 ^ 2) * η + 35371056 * η ^ 2) / 8128512 ∧
    p.A5 / Real.pi ^ ((5 : ℝ) / 3) = (6048 * c1 ^ 3 * (1 + δ - (3 + δ) * η) + 6048 * c2 ^ 3 * (1 - δ - (3 - δ) * η)
      + c2 * (287213 * (1 - δ) - 4 * (93414 - 2083 * δ) * η - 35632 * η ^ 2)
      + c1 * (287213 * (1 + δ) - 4 * (93414 + 2083 * δ) * η - 35632 * η ^ 2) + 42840 * (-1 + 4 * η) * Real.pi) / 32256 ∧
    p.A6 / Real.pi ^ 2 = (-1242641879927 + 12 * (28 * (-3248849057 + 11088 * (163199 * c1 ^ 2 - 266498 * c1 * c2
      + 163199 * c2 ^ 2)) * η ^ 2 + 27026893936 * η ^ 3 - 116424 * (147117 * (c2 ^ 2 * (1 - δ) + c1 ^ 2 * (1 + δ))
      + 60928 * (c1 * (1 + δ) + c2 * (1 - δ)) * Real.pi) + η * (545384828789 - 77616 * (638642 * c1 * c2
      + c1 ^ 2 * (-158633 + 282718 * δ) - c2 ^ 2 * (158633 + 282718 * δ) - 107520 * (c1 + c2) * Real.pi
      + 275520 * Real.pi ^ 2)))) / 60085960704 := by
  have h1 := lt_of_lt_of_le h2 h
  have hpi := Real.pi_pos
  intro p η δ c1 c2
  simp only [p, η, δ, c1, c2, XAS.inspiral_Amp_PN, eta_s h1 h2, XAS.delta_eq h2 h, PI]
  refine ⟨?_, ?_, ?_, ?_, ?_⟩ <;> rw [div_eq_iff (by positivity)] <;> ring

section
variable {m1 m2 : ℝ} (p1 : 0 < m1) (p2 : 0 < m2) (χ1 χ2 : ℝ)

lemma cons2 : 2 * ((-969 + 1804 * Spec.eta m1 m2) / 672) = r2 m1 m2 + 2 * h2 m1 m2 := by
  unfold r2 h2 Spec.psi2
  ring

lemma cons3 : 2 * ((χ1 * (81 * (1 + Spec.delta m1 m2) - 44 * Spec.eta m1 m2)
      + χ2 * (81 * (1 - Spec.delta m1 m2) - 44 * Spec.eta m1 m2)) / 48) =
    r3 m1 m2 χ1 χ2 + 2 * h3 m1 m2 χ1 χ2 := by
  unfold r3 h3 Spec.psi3
  ring

include p1 p2 in
lemma cons4 : 2 * ((-27312085 - 10287648 * (χ1 ^ 2 * (1 + Spec.delta m1 m2) + χ2 ^ 2 * (1 - Spec.delta m1 m2)) + 24 *
      (-1975055 + 857304 * χ1 ^ 2 - 994896 * χ1 * χ2 + 857304 * χ2 ^ 2) * Spec.eta m1 m2
      + 35371056 * Spec.eta m1 m2 ^ 2) / 8128512) + ((-969 + 1804 * Spec.eta m1 m2) / 672) ^ 2 =
    r4 m1 m2 χ1 χ2 + 2 * h2 m1 m2 * r2 m1 m2 + 2 * h4 m1 m2 χ1 χ2 + h2 m1 m2 ^ 2 := by
  unfold r4 h4 r2 h2 Spec.psi2 Spec.psi4 Spec.psi4SS
  rw [eta_X p1 p2, delta_X p1 p2, X2_eq p1 p2]
  ring

end

section
variable {m1 m2 : ℝ} (p1 : 0 < m1) (p2 : 0 < m2) (χ1 χ2 : ℝ)
include p1 p2

lemma cons5D : 0 + 2 * ((χ2 * (285197 * (1 - Spec.delta m1 m2) - 4 * (91902 - 1579 * Spec.delta m1 m2) * Spec.eta m1 m2
        - 35632 * Spec.eta m1 m2 ^ 2) + χ1 * (285197 * (1 + Spec.delta m1 m2)
        - 4 * (91902 + 1579 * Spec.delta m1 m2) * Spec.eta m1 m2 - 35632 * Spec.eta m1 m2 ^ 2)
        + 42840 * (-1 + 4 * Spec.eta m1 m2) * Real.pi) / 32256)
      + 2 * ((-969 + 1804 * Spec.eta m1 m2) / 672) * ((χ1 * (81 * (1 + Spec.delta m1 m2) - 44 * Spec.eta m1 m2)
      + χ2 * (81 * (1 - Spec.delta m1 m2) - 44 * Spec.eta m1 m2)) / 48) =
    r5 m1 m2 χ1 χ2 + 2 * h2 m1 m2 * r3 m1 m2 χ1 χ2 + 2 * h3 m1 m2 χ1 χ2 * r2 m1 m2 + 2 * h5 m1 m2
      + 2 * h2 m1 m2 * h3 m1 m2 χ1 χ2 := by
  unfold r5 h5 r3 h3 r2 h2 Spec.psi2 Spec.psi3 Spec.psi5
  rw [eta_X p1 p2, delta_X p1 p2]
  ring

lemma cons5X : Spec.horizonFlux m1 m2 χ1 χ2 + 2 * ((6048 * χ1 ^ 3 * (1 + Spec.delta m1 m2
        - (3 + Spec.delta m1 m2) * Spec.eta m1 m2) + 6048 * χ2 ^ 3 * (1 - Spec.delta m1 m2
        - (3 - Spec.delta m1 m2) * Spec.eta m1 m2)
        + χ2 * (287213 * (1 - Spec.delta m1 m2) - 4 * (93414 - 2083 * Spec.delta m1 m2) * Spec.eta m1 m2
        - 35632 * Spec.eta m1 m2 ^ 2) + χ1 * (287213 * (1 + Spec.delta m1 m2)
        - 4 * (93414 + 2083 * Spec.delta m1 m2) * Spec.eta m1 m2 - 35632 * Spec.eta m1 m2 ^ 2)
        + 42840 * (-1 + 4 * Spec.eta m1 m2) * Real.pi) / 32256)
      + 2 * ((-969 + 1804 * Spec.eta m1 m2) / 672) * ((χ1 * (81 * (1 + Spec.delta m1 m2) - 44 * Spec.eta m1 m2)
      + χ2 * (81 * (1 - Spec.delta m1 m2) - 44 * Spec.eta m1 m2)) / 48) =
    r5 m1 m2 χ1 χ2 + 2 * h2 m1 m2 * r3 m1 m2 χ1 χ2 + 2 * h3 m1 m2 χ1 χ2 * r2 m1 m2 + 2 * h5 m1 m2
      + 2 * h2 m1 m2 * h3 m1 m2 χ1 χ2 := by
  unfold Spec.horizonFlux r5 h5 r3 h3 r2 h2 Spec.psi2 Spec.psi3 Spec.psi5
  rw [eta_X p1 p2, delta_X p1 p2, X2_eq p1 p2]
  ring

end

/-- `(M f)²` is of order `f²` -/
lemma bigO_sq (κ K : ℝ) : (fun f : ℝ => κ * (K * f) ^ 2) =O[𝓝[>] 0] fun f : ℝ => f ^ 2 := by
  have : (fun f : ℝ => κ * (K * f) ^ 2) = fun f : ℝ => (κ * K ^ 2) * f ^ 2 := by funext f; ring
  rw [this]
  exact isBigO_const_mul_self _ _ _

lemma bigO_73 : (fun f : ℝ => f ^ ((7 : ℝ) / 3)) =O[𝓝[>] 0] fun f : ℝ => f ^ 2 := by
  have := (isBigO_refl (fun f : ℝ => f ^ 2) (𝓝[>] 0)).mul
    (((Real.continuousAt_rpow_const (0 : ℝ) ((1 : ℝ) / 3) (Or.inr (by norm_num))).tendsto.mono_left
      nhdsWithin_le_nhds).isBigO_one ℝ)
  simp only [mul_one] at this
  refine this.congr' ?_ EventuallyEq.rfl
  filter_upwards [self_mem_nhdsWithin] with f hf
  have hf : 0 < f := hf
  rw [← Real.rpow_natCast f 2, ← Real.rpow_add hf]
  norm_num

lemma of_expand {u : ℝ → ℝ} {κ K : ℝ} (h : (fun f => u f - κ * (K * f) ^ 2) =O[𝓝[>] 0] fun f : ℝ => f ^ ((7 : ℝ) / 3)) :
    u =O[𝓝[>] 0] fun f : ℝ => f ^ 2 := by
  have := (h.trans bigO_73).add (bigO_sq κ K)
  simpa only [sub_add_cancel] using this

/-! ### C100 -/

section
variable (q : QNM)

/-- IMRPhenomD, any spins: the squared modulus over the Newtonian one is the stationary-phase value through 2.5PN. -/
theorem C100_spinning_D (hq : q.Shipped) (hMc : 0 < Mc) (he : 0 < eta) (he' : eta ≤ 1 / 4) (hc1 : |chi1| ≤ 1)
    (hc2 : |chi2| ≤ 1) (hD : 0 < D) :
    (fun f => relAmpD q Mc eta chi1 chi2 D tc phic f_ref f ^ 2
      - Spec.spaPower (Mc_eta_to_ms Mc eta).1 (Mc_eta_to_ms Mc eta).2 chi1 chi2 f) =O[𝓝[>] 0] fun f : ℝ => f ^ 2 := by
  have hm := C02_masses_ordered Mc eta hMc he he'
  have p1 := lt_of_lt_of_le hm.1 hm.2.1
  have hs := relAmpD_series Mc eta chi1 chi2 D tc phic f_ref q hq hMc he he' hc1 hc2 hD
  obtain ⟨e2, e3, e4, e5, e6⟩ := pnD (thetaOf Mc eta chi1 chi2) hm.1 hm.2.1
  simp only [e2, e3, e4, e5, e6] at hs
  have := expand chi1 chi2 p1 hm.1 _ _ _ _ _ _ _ _ 0 0 cons2 (cons3 chi1 chi2) (cons4 p1 hm.1 chi1 chi2)
    (cons5D p1 hm.1 chi1 chi2) _ hs
  simp only [zero_mul, add_zero, mul_one] at this
  exact of_expand this

/-- IMRPhenomD without spins: ... through 3PN. -/
theorem C100_nonspinning_D (hq : q.Shipped) (hMc : 0 < Mc) (he : 0 < eta) (he' : eta ≤ 1 / 4) (hD : 0 < D) :
    (fun f => relAmpD q Mc eta 0 0 D tc phic f_ref f ^ 2
      - Spec.spaPower (Mc_eta_to_ms Mc eta).1 (Mc_eta_to_ms Mc eta).2 0 0 f) =O[𝓝[>] 0] fun f : ℝ => f ^ ((7 : ℝ) / 3) := by
  have hm := C02_masses_ordered Mc eta hMc he he'
  have p1 := lt_of_lt_of_le hm.1 hm.2.1
  have hs := relAmpD_series Mc eta 0 0 D tc phic f_ref q hq hMc he he' (by simp) (by simp) hD
  obtain ⟨e2, e3, e4, e5, e6⟩ := pnD (thetaOf Mc eta 0 0) hm.1 hm.2.1
  simp only [e2, e3, e4, e5, e6] at hs
  have := expand 0 0 p1 hm.1 _ _ _ _ _ _ _ _ 0 0 cons2 (cons3 0 0) (cons4 p1 hm.1 0 0)
    (cons5D p1 hm.1 0 0) _ hs
  simp only [zero_mul, add_zero, mul_one] at this
  refine this.congr_left fun f => ?_
  rw [sub_eq_self]
  refine mul_eq_zero_of_left ?_ _
  simp only [thetaOf]
  unfold r6 r4 h4 r3 h3 r2 h2 h6 Spec.psi2 Spec.psi3 Spec.psi4 Spec.psi4SS Spec.psi6 Spec.psi6SS
  ring

/-- IMRPhenomD: the terms linear in the spins agree through 3PN: the 3PN mismatch is even in the spins. -/
theorem C100_spin_orbit_D (hq : q.Shipped) (hMc : 0 < Mc) (he : 0 < eta) (he' : eta ≤ 1 / 4) (hc1 : |chi1| ≤ 1)
    (hc2 : |chi2| ≤ 1) (hD : 0 < D) :
    let mismatch := fun c1 c2 f => relAmpD q Mc eta c1 c2 D tc phic f_ref f ^ 2
      - Spec.spaPower (Mc_eta_to_ms Mc eta).1 (Mc_eta_to_ms Mc eta).2 c1 c2 f
    (fun f => mismatch chi1 chi2 f - mismatch (-chi1) (-chi2) f) =O[𝓝[>] 0] fun f : ℝ => f ^ ((7 : ℝ) / 3) := by
  have hm := C02_masses_ordered Mc eta hMc he he'
  have p1 := lt_of_lt_of_le hm.1 hm.2.1
  have key : ∀ c1 c2 : ℝ, |c1| ≤ 1 → |c2| ≤ 1 → _ := fun c1 c2 hc1 hc2 => by
    have hs := relAmpD_series Mc eta c1 c2 D tc phic f_ref q hq hMc he he' hc1 hc2 hD
    obtain ⟨e2, e3, e4, e5, e6⟩ := pnD (thetaOf Mc eta c1 c2) hm.1 hm.2.1
    simp only [e2, e3, e4, e5, e6] at hs
    have := expand c1 c2 p1 hm.1 _ _ _ _ _ _ _ _ 0 0 cons2 (cons3 c1 c2) (cons4 p1 hm.1 c1 c2)
      (cons5D p1 hm.1 c1 c2) _ hs
    simp only [zero_mul, add_zero, mul_one] at this
    exact this
  intro mismatch
  refine ((key chi1 chi2 hc1 hc2).sub (key (-chi1) (-chi2) (by rwa [abs_neg]) (by rwa [abs_neg]))).congr_left fun f => ?_
  simp only [mismatch, thetaOf]
  rw [sub_sub_sub_comm, sub_eq_self, ← sub_mul]
  refine mul_eq_zero_of_left ?_ _
  have hX := eta_X p1 hm.1
  have hX' := delta_X p1 hm.1
  unfold r6 r4 h4 r3 h3 r2 h2 h6 Spec.psi2 Spec.psi3 Spec.psi4 Spec.psi4SS Spec.psi6 Spec.psi6SS
  rw [hX, hX']
  ring

/-- IMRPhenomXAS, any spins: with the flux through the horizons added, the squared modulus over the Newtonian one is the
    stationary-phase value through 2.5PN. -/
theorem C100_spinning_XAS (hMc : 0 < Mc) (he : 0 < eta) (he' : eta ≤ 1 / 4) (hc1 : |chi1| ≤ 1)
    (hc2 : |chi2| ≤ 1) (hD : 0 < D) :
    let m1 := (Mc_eta_to_ms Mc eta).1
    let m2 := (Mc_eta_to_ms Mc eta).2
    (fun f => relAmpX Mc eta chi1 chi2 D tc phic f_ref f ^ 2
        * (1 + Spec.horizonFlux m1 m2 chi1 chi2 * (Real.pi * ((m1 + m2) * gt) * f) ^ ((5 : ℝ) / 3))
      - Spec.spaPower m1 m2 chi1 chi2 f) =O[𝓝[>] 0] fun f : ℝ => f ^ 2 := by
  have hm := C02_masses_ordered Mc eta hMc he he'
  have p1 := lt_of_lt_of_le hm.1 hm.2.1
  have hs := relAmpX_series Mc eta chi1 chi2 D tc phic f_ref hMc he he' hc1 hc2 hD
  obtain ⟨e2, e3, e4, e5, e6⟩ := pnX (thetaOf Mc eta chi1 chi2) hm.1 hm.2.1
  simp only [e2, e3, e4, e5, e6] at hs
  have := expand chi1 chi2 p1 hm.1 _ _ _ _ _ _ _ _ _ 0 cons2 (cons3 chi1 chi2) (cons4 p1 hm.1 chi1 chi2)
    (cons5X p1 hm.1 chi1 chi2) _ hs
  simp only [zero_mul, add_zero, mul_one] at this
  exact of_expand this

/-- IMRPhenomXAS without spins: ... through 3PN. -/
theorem C100_nonspinning_XAS (hMc : 0 < Mc) (he : 0 < eta) (he' : eta ≤ 1 / 4) (hD : 0 < D) :
    (fun f => relAmpX Mc eta 0 0 D tc phic f_ref f ^ 2
      - Spec.spaPower (Mc_eta_to_ms Mc eta).1 (Mc_eta_to_ms Mc eta).2 0 0 f) =O[𝓝[>] 0] fun f : ℝ => f ^ ((7 : ℝ) / 3) := by
  have hm := C02_masses_ordered Mc eta hMc he he'
  have p1 := lt_of_lt_of_le hm.1 hm.2.1
  have hs := relAmpX_series Mc eta 0 0 D tc phic f_ref hMc he he' (by simp) (by simp) hD
  obtain ⟨e2, e3, e4, e5, e6⟩ := pnX (thetaOf Mc eta 0 0) hm.1 hm.2.1
  simp only [e2, e3, e4, e5, e6] at hs
  have hh : Spec.horizonFlux (Mc_eta_to_ms Mc eta).1 (Mc_eta_to_ms Mc eta).2 0 0 = 0 := by unfold Spec.horizonFlux; ring
  have := expand 0 0 p1 hm.1 _ _ _ _ _ _ _ _ _ 0 cons2 (cons3 0 0) (cons4 p1 hm.1 0 0)
    (cons5X p1 hm.1 0 0) _ hs
  simp only [hh, zero_mul, add_zero, mul_one] at this
  refine this.congr_left fun f => ?_
  rw [sub_eq_self]
  refine mul_eq_zero_of_left ?_ _
  simp only [thetaOf]
  unfold r6 r4 h4 r3 h3 r2 h2 h6 Spec.psi2 Spec.psi3 Spec.psi4 Spec.psi4SS Spec.psi6 Spec.psi6SS
  ring

/-- IMRPhenomXAS: the terms linear in the spins agree through 3PN once the 3PN spin-orbit tail flux, which this amplitude
    leaves out, is removed: the remaining 3PN mismatch is even in the spins. -/
theorem C100_spin_orbit_XAS (hMc : 0 < Mc) (he : 0 < eta) (he' : eta ≤ 1 / 4) (hc1 : |chi1| ≤ 1)
    (hc2 : |chi2| ≤ 1) (hD : 0 < D) :
    let m1 := (Mc_eta_to_ms Mc eta).1
    let m2 := (Mc_eta_to_ms Mc eta).2
    let mismatch := fun c1 c2 f => relAmpX Mc eta c1 c2 D tc phic f_ref f ^ 2
        * (1 + Spec.horizonFlux m1 m2 c1 c2 * (Real.pi * ((m1 + m2) * gt) * f) ^ ((5 : ℝ) / 3))
      - Spec.spaPower m1 m2 c1 c2 f * (1 + Spec.tailFlux m1 m2 c1 c2 * (Real.pi * ((m1 + m2) * gt) * f) ^ 2)
    (fun f => mismatch chi1 chi2 f - mismatch (-chi1) (-chi2) f) =O[𝓝[>] 0] fun f : ℝ => f ^ ((7 : ℝ) / 3) := by
  have hm := C02_masses_ordered Mc eta hMc he he'
  have p1 := lt_of_lt_of_le hm.1 hm.2.1
  have key : ∀ c1 c2 : ℝ, |c1| ≤ 1 → |c2| ≤ 1 → _ := fun c1 c2 hc1 hc2 => by
    have hs := relAmpX_series Mc eta c1 c2 D tc phic f_ref hMc he he' hc1 hc2 hD
    obtain ⟨e2, e3, e4, e5, e6⟩ := pnX (thetaOf Mc eta c1 c2) hm.1 hm.2.1
    simp only [e2, e3, e4, e5, e6] at hs
    exact expand c1 c2 p1 hm.1 _ _ _ _ _ _ _ _ _ (Spec.tailFlux (Mc_eta_to_ms Mc eta).1 (Mc_eta_to_ms Mc eta).2 c1 c2)
      cons2 (cons3 c1 c2) (cons4 p1 hm.1 c1 c2) (cons5X p1 hm.1 c1 c2) _ hs
  intro m1 m2 mismatch
  refine ((key chi1 chi2 hc1 hc2).sub (key (-chi1) (-chi2) (by rwa [abs_neg]) (by rwa [abs_neg]))).congr_left fun f => ?_
  simp only [mismatch, thetaOf, m1, m2]
  rw [sub_sub_sub_comm, sub_eq_self, ← sub_mul]
  refine mul_eq_zero_of_left ?_ _
  have hX := eta_X p1 hm.1
  have hX' := delta_X p1 hm.1
  unfold r6 r4 h4 r3 h3 r2 h2 h6 Spec.psi2 Spec.psi3 Spec.psi4 Spec.psi4SS Spec.psi6 Spec.psi6SS Spec.tailFlux
  rw [hX, hX']
  ring

/-- IMRPhenomD through 3PN: the only 3PN mismatch is quadratic in the spins, of the exchange-symmetric form allowed by
    mass scaling, with these coefficients (`Spec.mode22` contains no spin-squared term at 3PN). -/
theorem C100_spin_squared_D (hq : q.Shipped) (hMc : 0 < Mc) (he : 0 < eta) (he' : eta ≤ 1 / 4) (hc1 : |chi1| ≤ 1)
    (hc2 : |chi2| ≤ 1) (hD : 0 < D) :
    let m1 := (Mc_eta_to_ms Mc eta).1
    let m2 := (Mc_eta_to_ms Mc eta).2
    (fun f => relAmpD q Mc eta chi1 chi2 D tc phic f_ref f ^ 2 - Spec.spaPower m1 m2 chi1 chi2 f
      - Spec.spinSquared (3159 / 224) (3041 / 96) (3227 / 96) (29777 / 336) (-(901 / 48)) m1 m2 chi1 chi2
        * (Real.pi * ((m1 + m2) * gt) * f) ^ 2) =O[𝓝[>] 0] fun f : ℝ => f ^ ((7 : ℝ) / 3) := by
  have hm := C02_masses_ordered Mc eta hMc he he'
  have p1 := lt_of_lt_of_le hm.1 hm.2.1
  have hs := relAmpD_series Mc eta chi1 chi2 D tc phic f_ref q hq hMc he he' hc1 hc2 hD
  obtain ⟨e2, e3, e4, e5, e6⟩ := pnD (thetaOf Mc eta chi1 chi2) hm.1 hm.2.1
  simp only [e2, e3, e4, e5, e6] at hs
  have := expand chi1 chi2 p1 hm.1 _ _ _ _ _ _ _ _ 0 0 cons2 (cons3 chi1 chi2) (cons4 p1 hm.1 chi1 chi2)
    (cons5D p1 hm.1 chi1 chi2) _ hs
  simp only [zero_mul, add_zero, mul_one] at this
  intro m1 m2
  refine this.congr_left fun f => ?_
  simp only [thetaOf, m1, m2]
  congr 2
  have hX := eta_X p1 hm.1
  have hX' := delta_X p1 hm.1
  have hX2 := X2_eq p1 hm.1
  unfold r6 r4 h4 r3 h3 r2 h2 h6 Spec.psi2 Spec.psi3 Spec.psi4 Spec.psi4SS Spec.psi6 Spec.psi6SS Spec.spinSquared
  rw [hX, hX', hX2]
  ring

/-- IMRPhenomXAS through 3PN: with the horizon flux divided out and the spin-orbit tail flux left out, the only 3PN mismatch
    is again quadratic in the spins, with these coefficients. -/
theorem C100_spin_squared_XAS (hMc : 0 < Mc) (he : 0 < eta) (he' : eta ≤ 1 / 4) (hc1 : |chi1| ≤ 1)
    (hc2 : |chi2| ≤ 1) (hD : 0 < D) :
    let m1 := (Mc_eta_to_ms Mc eta).1
    let m2 := (Mc_eta_to_ms Mc eta).2
    (fun f => relAmpX Mc eta chi1 chi2 D tc phic f_ref f ^ 2
        * (1 + Spec.horizonFlux m1 m2 chi1 chi2 * (Real.pi * ((m1 + m2) * gt) * f) ^ ((5 : ℝ) / 3))
      - Spec.spaPower m1 m2 chi1 chi2 f * (1 + Spec.tailFlux m1 m2 chi1 chi2 * (Real.pi * ((m1 + m2) * gt) * f) ^ 2)
      - Spec.spinSquared (-(507 / 28)) (77 / 6) (1507 / 72) (-(281 / 168)) (-(521 / 36)) m1 m2 chi1 chi2
        * (Real.pi * ((m1 + m2) * gt) * f) ^ 2) =O[𝓝[>] 0] fun f : ℝ => f ^ ((7 : ℝ) / 3) := by
  have hm := C02_masses_ordered Mc eta hMc he he'
  have p1 := lt_of_lt_of_le hm.1 hm.2.1
  have hs := relAmpX_series Mc eta chi1 chi2 D tc phic f_ref hMc he he' hc1 hc2 hD
  obtain ⟨e2, e3, e4, e5, e6⟩ := pnX (thetaOf Mc eta chi1 chi2) hm.1 hm.2.1
  simp only [e2, e3, e4, e5, e6] at hs
  have := expand chi1 chi2 p1 hm.1 _ _ _ _ _ _ _ _ _ (Spec.tailFlux (Mc_eta_to_ms Mc eta).1 (Mc_eta_to_ms Mc eta).2 chi1 chi2)
    cons2 (cons3 chi1 chi2) (cons4 p1 hm.1 chi1 chi2) (cons5X p1 hm.1 chi1 chi2) _ hs
  intro m1 m2
  refine this.congr_left fun f => ?_
  simp only [thetaOf, m1, m2]
  congr 2
  have hX := eta_X p1 hm.1
  have hX' := delta_X p1 hm.1
  have hX2 := X2_eq p1 hm.1
  unfold r6 r4 h4 r3 h3 r2 h2 h6 Spec.psi2 Spec.psi3 Spec.psi4 Spec.psi4SS Spec.psi6 Spec.psi6SS Spec.tailFlux
    Spec.spinSquared
  rw [hX, hX', hX2]
  ring

/-- The Newtonian factor of both families (`get_Amp0`, up to the normalisation `2 √(5/(64π))` of the spherical harmonic) is
    the textbook one. -/
theorem C100_leading_order (x eta : ℝ) (he : 0 ≤ eta) :
    XAS.get_Amp0 x eta * (2 * Real.sqrt (5 / (64 * Real.pi))) =
      Real.sqrt (5 * eta / 24) * Real.pi ^ (-(2 / 3) : ℝ) * x ^ (-(7 / 6) : ℝ) ∧
    PhenomD.get_Amp0 x eta * (2 * Real.sqrt (5 / (64 * Real.pi))) =
      Real.sqrt (5 * eta / 24) * Real.pi ^ (-(2 / 3) : ℝ) * x ^ (-(7 / 6) : ℝ) := by
  have hpi := Real.pi_pos
  have e1 : (2 / 3 * eta) ^ ((1 : ℝ) / 2) * (2 * Real.sqrt (5 / (64 * Real.pi))) * Real.pi ^ (-((1 : ℝ) / 6)) =
      Real.sqrt (5 * eta / 24) * Real.pi ^ (-(2 / 3) : ℝ) := by
    rw [← Real.sqrt_eq_rpow, show (2 : ℝ) * Real.sqrt (5 / (64 * Real.pi)) = Real.sqrt 4 * Real.sqrt (5 / (64 * Real.pi)) by
      rw [show (4 : ℝ) = 2 ^ 2 by norm_num, Real.sqrt_sq (by norm_num)]]
    rw [← Real.sqrt_mul (by norm_num), ← Real.sqrt_mul (by positivity),
      show 2 / 3 * eta * (4 * (5 / (64 * Real.pi))) = 5 * eta / 24 * Real.pi⁻¹ by
        field_simp; ring, Real.sqrt_mul (by positivity), Real.sqrt_eq_rpow Real.pi⁻¹,
      ← Real.rpow_neg_one, ← Real.rpow_mul hpi.le,
      show Real.pi ^ (-(2 / 3) : ℝ) = Real.pi ^ (-1 * (1 / 2) : ℝ) * Real.pi ^ (-((1 : ℝ) / 6)) by
        rw [← Real.rpow_add hpi]; norm_num]
    ring
  unfold XAS.get_Amp0 PhenomD.get_Amp0
  rw [← e1]
  constructor <;> (simp only [PI]; ring)

lemma eta_cont {m1 : ℝ} (h : 0 < m1) : ∃ e : ℝ → ℝ, (∀ m2, m1 * gt * (m2 * gt) / (m1 * gt + m2 * gt) ^ 2 = e m2) ∧
    ContinuousAt e 0 ∧ e 0 = 0 := by
  have hg := gt_pos
  refine ⟨fun m2 => m1 * gt * (m2 * gt) / (m1 * gt + m2 * gt) ^ 2, fun _ => rfl, ?_, by simp⟩
  refine ContinuousAt.div (by fun_prop) (by fun_prop) ?_
  simp only [zero_mul, add_zero]
  positivity

lemma _root_.ContinuousAt.tendsto_zero {g : ℝ → ℝ} (h : ContinuousAt g 0) (h0 : g 0 = 0) : Tendsto g (𝓝 0) (𝓝 0) := by
  have := h.tendsto
  rwa [h0] at this

/-- The spin of a vanishingly light companion drops out of every post-Newtonian coefficient (IMRPhenomD). -/
theorem C100_test_mass_D (m1 : ℝ) (h : 0 < m1) (c1 c2 c2' : ℝ) (A : PhenomD.AmpPN → ℝ)
    (hA : A = PhenomD.AmpPN.A3 ∨ A = PhenomD.AmpPN.A4 ∨ A = PhenomD.AmpPN.A5 ∨ A = PhenomD.AmpPN.A6) :
    Tendsto (fun m2 => A (PhenomD.get_inspiral_Amp_coeffs ⟨m1, m2, c1, c2⟩) - A (PhenomD.get_inspiral_Amp_coeffs ⟨m1, m2, c1, c2'⟩)) (𝓝[>] 0) (𝓝 0) := by
  obtain ⟨e, he, hc, h0⟩ := eta_cont h
  refine Tendsto.mono_left ?_ (nhdsWithin_le_nhds)
  rcases hA with rfl | rfl | rfl | rfl
  all_goals
    simp only [PhenomD.get_inspiral_Amp_coeffs, he]
    refine ContinuousAt.tendsto_zero ?_ ?_
    · fun_prop
    · simp only [h0, mul_zero, sub_zero, Real.sqrt_one]
      ring

/-- The spin of a vanishingly light companion drops out of every post-Newtonian coefficient (IMRPhenomXAS). -/
theorem C100_test_mass_XAS (m1 : ℝ) (h : 0 < m1) (c1 c2 c2' : ℝ) (A : XAS.AmpPN → ℝ)
    (hA : A = XAS.AmpPN.A3 ∨ A = XAS.AmpPN.A4 ∨ A = XAS.AmpPN.A5 ∨ A = XAS.AmpPN.A6) :
    Tendsto (fun m2 => A (XAS.inspiral_Amp_PN ⟨m1, m2, c1, c2⟩) - A (XAS.inspiral_Amp_PN ⟨m1, m2, c1, c2'⟩)) (𝓝[>] 0) (𝓝 0) := by
  obtain ⟨e, he, hc, h0⟩ := eta_cont h
  refine Tendsto.mono_left ?_ (nhdsWithin_le_nhds)
  rcases hA with rfl | rfl | rfl | rfl
  all_goals
    simp only [XAS.inspiral_Amp_PN, he]
    refine ContinuousAt.tendsto_zero ?_ ?_
    · fun_prop
    · simp only [h0, mul_zero, sub_zero, Real.sqrt_one]
      ring

/-- For equal masses the two spins enter every post-Newtonian coefficient symmetrically. -/
theorem C100_equal_mass (m : ℝ) (h : 0 < m) (c1 c2 : ℝ) :
    PhenomD.get_inspiral_Amp_coeffs ⟨m, m, c1, c2⟩ = PhenomD.get_inspiral_Amp_coeffs ⟨m, m, c2, c1⟩ ∧
    XAS.inspiral_Amp_PN ⟨m, m, c1, c2⟩ = XAS.inspiral_Amp_PN ⟨m, m, c2, c1⟩ := by
  have he : Spec.eta m m = 1 / 4 := by unfold Spec.eta; field_simp; norm_num
  have hs : Real.sqrt (1 - 4 * (1 / 4)) = 0 := by norm_num
  constructor
  · simp only [PhenomD.get_inspiral_Amp_coeffs, eta_s h h, he, hs, PhenomD.AmpPN.mk.injEq]
    refine ⟨trivial, trivial, ?_, ?_, ?_, ?_⟩ <;> ring
  · simp only [XAS.inspiral_Amp_PN, eta_s h h, he, hs, XAS.AmpPN.mk.injEq]
    refine ⟨trivial, trivial, ?_, ?_, ?_, ?_⟩ <;> ring

end

/-- witness: the shipped tables and a spinning binary of chirp mass 26 meet the hypotheses -/
example : (fun f => relAmpD (qnmTable 1.2e-7) 26 0.24 0.5 (-0.3) 400 0 0 20 f ^ 2
      - Spec.spaPower (Mc_eta_to_ms 26 0.24).1 (Mc_eta_to_ms 26 0.24).2 0.5 (-0.3) f) =O[𝓝[>] 0] fun f : ℝ => f ^ 2 :=
  C100_spinning_D 26 0.24 0.5 (-0.3) 400 0 0 20 _ (C93_shipped (by norm_num) (by norm_num)) (by norm_num) (by norm_num)
    (by norm_num) (by norm_num [abs_le]) (by norm_num [abs_le]) (by norm_num)

/-- witness: the flux terms of that binary do not vanish -/
example : Spec.horizonFlux 2 1 (1 / 2) 0 ≠ 0 ∧ Spec.tailFlux 2 1 (1 / 2) 0 ≠ 0 := by
  have := Real.pi_pos
  unfold Spec.horizonFlux Spec.tailFlux Spec.eta Spec.delta
  constructor
  · norm_num
  · refine mul_ne_zero this.ne' ?_
    norm_num

end
end Ripple

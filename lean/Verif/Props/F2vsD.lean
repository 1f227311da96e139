/-
  Property C41: PhenomD and TaylorF2 strain moduli.
-/
import Verif.Props.TaylorF2
import Verif.Props.PhenomDPhys
import Mathlib.Topology.Order.Basic

namespace Ripple
open TaylorF2 PhenomD Filter Topology

section
variable (q : QNM) (Mc eta chi1 chi2 D tc phic f_ref : ℝ)

lemma amp0_newton {m1 m2 : ℝ} (h1 : 0 < m1) (h2 : 0 < m2) (D : ℝ) {x : ℝ} (hx : 0 < x) :
    get_Amp0 (x * (m1 * gt + m2 * gt)) (m1 * gt * (m2 * gt) / (m1 * gt + m2 * gt) ^ 2)
      * (2 * Real.sqrt (5 / (64 * PI))) * (m1 * gt + m2 * gt) ^ 2 / (D * m_per_Mpc / C) =
    C * gt / MRSUN * (Real.sqrt (5 / 24) * Real.pi ^ (-(2 / 3) : ℝ) *
      Real.sqrt (m1 * m2 / (m1 + m2) ^ 2) * ((m1 + m2) * MRSUN) *
      ((m1 + m2) * gt) * ((m1 + m2) * gt * x) ^ (-(7 / 6) : ℝ) / (D * m_per_Mpc)) := by
  have hg := gt_pos
  have hpi := Real.pi_pos
  have hC := C_pos
  have hMR := MRSUN_pos
  rw [eta_s h1 h2]
  unfold get_Amp0
  simp only [PI]
  rw [show x * (m1 * gt + m2 * gt) = (m1 + m2) * gt * x by ring]
  have he : 0 < Spec.eta m1 m2 := by unfold Spec.eta; positivity
  rw [show m1 * m2 / (m1 + m2) ^ 2 = Spec.eta m1 m2 from rfl]
  have e1 : (2 / 3 * Spec.eta m1 m2) ^ ((1 : ℝ) / 2) * (2 * Real.sqrt (5 / (64 * Real.pi))) * Real.pi ^ (-((1 : ℝ) / 6)) =
      Real.sqrt (5 / 24) * Real.pi ^ (-(2 / 3) : ℝ) * Real.sqrt (Spec.eta m1 m2) := by
    rw [← Real.sqrt_eq_rpow, show (2 : ℝ) * Real.sqrt (5 / (64 * Real.pi)) = Real.sqrt 4 * Real.sqrt (5 / (64 * Real.pi)) by
      rw [show (4 : ℝ) = 2 ^ 2 by norm_num, Real.sqrt_sq (by norm_num)]]
    rw [← Real.sqrt_mul (by norm_num), ← Real.sqrt_mul (by positivity),
      show 2 / 3 * Spec.eta m1 m2 * (4 * (5 / (64 * Real.pi))) = 5 / 24 * (Spec.eta m1 m2 * Real.pi⁻¹) by
        field_simp; norm_num, Real.sqrt_mul (by norm_num), Real.sqrt_mul he.le, Real.sqrt_eq_rpow Real.pi⁻¹,
      ← Real.rpow_neg_one, ← Real.rpow_mul hpi.le,
      show Real.pi ^ (-(2 / 3) : ℝ) = Real.pi ^ (-1 * (1 / 2) : ℝ) * Real.pi ^ (-((1 : ℝ) / 6)) by
        rw [← Real.rpow_add hpi]; norm_num]
    ring
  have e2 : (m1 * gt + m2 * gt) ^ 2 = ((m1 + m2) * gt) * ((m1 + m2) * gt) := by ring
  rw [e2]
  calc _ = ((2 / 3 * Spec.eta m1 m2) ^ ((1 : ℝ) / 2) * (2 * Real.sqrt (5 / (64 * Real.pi))) * Real.pi ^ (-((1 : ℝ) / 6))) *
        ((m1 + m2) * gt * x) ^ (-((7 : ℝ) / 6)) * ((m1 + m2) * gt * ((m1 + m2) * gt)) / (D * m_per_Mpc / C) := by ring
    _ = _ := by
      rw [e1]
      field_simp

/-- In the inspiral region the PhenomD modulus is the TaylorF2 modulus times the inspiral amplitude correction and the
    ratio of the two solar-mass constants. -/
theorem C41_inspiral (hMc : 0 < Mc) (he : 0 < eta) (he' : eta ≤ 1 / 4) (hD : 0 < D)
    (grid : List ℝ) (hne : grid ≠ [])
    (hl : ∀ x ∈ grid, x < fCut (thetaOf Mc eta chi1 chi2)) (j : ℕ) (hj : j < grid.length) (hf : 0 < grid.getD j 0)
    (h3 : grid.getD j 0 < (tfOf q (thetaOf Mc eta chi1 chi2)).f3)
    (h4 : grid.getD j 0 < (tfOf q (thetaOf Mc eta chi1 chi2)).f4)
    (l1 l2 tc' phic' f_ref' : ℝ) (b : Bool) :
    ‖(gen_IMRPhenomD q grid [Mc, eta, chi1, chi2, D, tc, phic] f_ref).getD j 0‖ =
      C * gt / MRSUN * ‖(gen_TaylorF2 grid [Mc, eta, chi1, chi2, l1, l2, D, tc', phic'] f_ref' b).getD j 0‖ *
        |get_inspiral_Amp (grid.getD j 0 * (((thetaOf Mc eta chi1 chi2).m1 + (thetaOf Mc eta chi1 chi2).m2) * gt))
          (thetaOf Mc eta chi1 chi2) (get_coeffs (thetaOf Mc eta chi1 chi2))| := by
  have hlast := hl _ (Jnp.getD_mem (l := grid) (i := grid.length - 1) (by omega))
  have hm := C02_masses_ordered Mc eta hMc he he'
  have hm1 : 0 < (Mc_eta_to_ms Mc eta).1 := lt_of_lt_of_le hm.1 hm.2.1
  rw [genD_eq, genF2_eq, map_getElem hj, map_getElem hj, cutThr_uncut hne hlast, strainAt_below (hl _ (Jnp.getD_mem hj))]
  set x := grid.getD j 0
  set th := thetaOf Mc eta chi1 chi2 with hth
  have hn : ∀ p : ℝ, ‖Complex.exp (Complex.I * (p : ℂ))‖ = 1 := fun p => by
    rw [mul_comm]; exact Complex.norm_exp_ofReal_mul_I _
  have hn' : ∀ p : ℝ, ‖Complex.exp (-(Complex.I * (p : ℂ)))‖ = 1 := fun p => by
    rw [show -(Complex.I * (p : ℂ)) = Complex.I * ((-p : ℝ) : ℂ) by push_cast; ring]; exact hn _
  rw [f2strain, norm_mul, norm_mul, hn, hn', mul_one, mul_one, Complex.norm_real, Complex.norm_real, Real.norm_eq_abs,
    Real.norm_eq_abs, f2amp_eq (theta := thetaTOf Mc eta chi1 chi2 l1 l2 b) hm1 hm.1 hf, abs_neg]
  have hA : ampAt th (get_coeffs th) (tfOf q th) D (fCut th) x =
      get_Amp0 (x * (th.m1 * gt + th.m2 * gt)) (th.m1 * gt * (th.m2 * gt) / (th.m1 * gt + th.m2 * gt) ^ 2)
      * (2 * Real.sqrt (5 / (64 * PI))) * (th.m1 * gt + th.m2 * gt) ^ 2 / (D * m_per_Mpc / C) *
      get_inspiral_Amp (x * ((th.m1 + th.m2) * gt)) th (get_coeffs th) := by
    unfold ampAt
    rw [Jnp.heaviside_pos (x := (tfOf q th).f3 - x) (by linarith), Jnp.heaviside_neg (x := x - (tfOf q th).f3) (by linarith),
      Jnp.heaviside_neg (x := x - (tfOf q th).f4) (by linarith), 
      show (th.m1 + th.m2) * gt = th.m1 * gt + th.m2 * gt by ring, show Ms th = th.m1 * gt + th.m2 * gt from rfl]
    ring
  have hp : 0 < C * gt / MRSUN := div_pos (mul_pos C_pos gt_pos) MRSUN_pos
  rw [hA, amp0_newton (m1 := th.m1) (m2 := th.m2) hm1 hm.1 D hf, abs_mul, abs_mul, abs_of_pos hp]
  rfl

/-- the two constants agree to 2e-8 but not to 1e-8 -/
theorem C41_constants : 1e-8 < C * gt / MRSUN - 1 ∧ C * gt / MRSUN - 1 < 2e-8 := by
  unfold gt C MRSUN G MSUN
  constructor <;> norm_num

/-- The inspiral correction tends to one: at low frequency the ratio of the moduli of the two waveforms tends to the ratio
    of the constants, for every physical binary. -/
theorem C41_low_frequency (hq : q.Shipped) (hMc : 0 < Mc) (he : 0 < eta) (he' : eta ≤ 1 / 4) (h1 : |chi1| ≤ 1)
    (h2 : |chi2| ≤ 1) (hD : 0 < D) (l1 l2 tc' phic' f_ref' : ℝ) (b : Bool) :
    Tendsto (fun x => ‖(gen_IMRPhenomD q [x] [Mc, eta, chi1, chi2, D, tc, phic] f_ref).getD 0 0‖ /
        ‖(gen_TaylorF2 [x] [Mc, eta, chi1, chi2, l1, l2, D, tc', phic'] f_ref' b).getD 0 0‖)
      (𝓝[>] 0) (𝓝 (C * gt / MRSUN)) := by
  have hp := thetaOf_physical (chi1 := chi1) (chi2 := chi2) hMc he he' h1 h2
  obtain ⟨a3, a34, a4R, aR, -, -, -, -⟩ := C74_amplitude_regions_ordered q hq _ hp
  set th := thetaOf Mc eta chi1 chi2 with hth
  have hlim : Tendsto (fun x : ℝ => C * gt / MRSUN * |get_inspiral_Amp (x * ((th.m1 + th.m2) * gt)) th (get_coeffs th)|)
      (𝓝[>] 0) (𝓝 (C * gt / MRSUN * |1|)) := by
    have hc : ContinuousAt (fun x : ℝ => get_inspiral_Amp (x * ((th.m1 + th.m2) * gt)) th (get_coeffs th)) 0 := by
      unfold get_inspiral_Amp
      have r : ∀ p : ℝ, 0 < p → ContinuousAt (fun x : ℝ => (x * ((th.m1 + th.m2) * gt)) ^ p) 0 := fun p hp =>
        ContinuousAt.rpow_const (by fun_prop) (Or.inr hp.le)
      have := r (2 / 3) (by norm_num)
      have := r (4 / 3) (by norm_num)
      have := r (5 / 3) (by norm_num)
      have := r (7 / 3) (by norm_num)
      have := r (8 / 3) (by norm_num)
      fun_prop
    have h0 : get_inspiral_Amp (0 * ((th.m1 + th.m2) * gt)) th (get_coeffs th) = 1 := by
      unfold get_inspiral_Amp
      simp only [zero_mul]
      rw [Real.zero_rpow (by norm_num), Real.zero_rpow (by norm_num), Real.zero_rpow (by norm_num),
        Real.zero_rpow (by norm_num), Real.zero_rpow (by norm_num)]
      simp [get_inspiral_Amp_coeffs]
    have hc' : Tendsto (fun x : ℝ => get_inspiral_Amp (x * ((th.m1 + th.m2) * gt)) th (get_coeffs th)) (𝓝[>] 0) (𝓝 1) := by
      have := hc.tendsto
      simp only [h0] at this
      exact this.mono_left nhdsWithin_le_nhds
    exact (hc'.abs).const_mul _
  rw [abs_one, mul_one] at hlim
  refine hlim.congr' ?_
  have hmem : Set.Ioo (0 : ℝ) (tfOf q th).f3 ∈ 𝓝[>] (0 : ℝ) := Ioo_mem_nhdsGT a3
  filter_upwards [hmem] with x hx
  have hx4 : x < (tfOf q th).f4 := hx.2.trans a34
  have hxc : x < fCut th := hx4.trans (lt_of_le_of_lt a4R aR)
  have := C41_inspiral q Mc eta chi1 chi2 D tc phic f_ref hMc he he' hD [x] (by simp)
    (by intro y hy; rw [List.mem_singleton] at hy; rw [hy]; exact hxc) 0 (by simp) (by simpa using hx.1)
    (by simpa using hx.2) (by simpa using hx4) l1 l2 tc' phic' f_ref' b
  rw [this]
  have hn : 0 < ‖(gen_TaylorF2 [x] [Mc, eta, chi1, chi2, l1, l2, D, tc', phic'] f_ref' b).getD 0 0‖ := by
    rw [C37_amplitude Mc eta chi1 chi2 l1 l2 D tc' phic' f_ref' b [x] hMc he he' hD 0 (by simp) (by simpa using hx.1)]
    have := gt_pos
    have := MRSUN_pos
    have := m_per_Mpc_pos
    have := Real.pi_pos
    have hx0 : 0 < [x].getD 0 0 := by simpa using hx.1
    unfold Spec.newtonianAmp
    positivity
  rw [eq_div_iff hn.ne']
  simp only [List.getD_cons_zero]
  ring

end
end Ripple

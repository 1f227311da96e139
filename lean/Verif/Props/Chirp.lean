/-
  Property theorems C121: the Newtonian chirp of the generators.
-/
import Verif.Proofs.Chirp
import Verif.Proofs.ArrivalGen
import Verif.Props.Amp22
import Verif.Props.XASPhys
import Verif.Props.NRTidalv2

namespace Ripple
open Filter Topology Set

/-- sanity of the definition: a spectrum chirps with one chirp mass only -/
lemma Chirps.unique {h : ℝ → ℂ} {c c' : ℝ} (hc : 0 < c) (hc' : 0 < c') (a : Chirps h c) (b : Chirps h c') : c = c' := by
  obtain ⟨T, t1, t2⟩ := a
  obtain ⟨S, s1, s2⟩ := b
  have hpi := Real.pi_pos
  have e : ∀ᶠ f in 𝓝[>] (0 : ℝ), T f = S f := by
    filter_upwards [t1, s1] with f x y
    obtain ⟨d, hd, -, ed⟩ := x
    obtain ⟨d', hd', -, ed'⟩ := y
    rw [hd.unique hd'] at ed
    rw [ed, ed']
  have l := t2.div s2 (by norm_num)
  rw [div_self (by norm_num)] at l
  have l2 : Tendsto (fun f : ℝ => c' ^ (-((5 : ℝ) / 3)) / c ^ (-((5 : ℝ) / 3))) (𝓝[>] 0) (𝓝 1) := by
    refine l.congr' ?_
    filter_upwards [e, self_mem_nhdsWithin, s2.eventually_ne (show (-1 : ℝ) ≠ 0 by norm_num)] with f ef hf hs
    have hf : 0 < f := hf
    simp only [Pi.div_apply]
    rw [ef]
    have p1 : 0 < (Real.pi * f) ^ (-((8 : ℝ) / 3)) := by positivity
    have p2 : 0 < c ^ (-((5 : ℝ) / 3)) := by positivity
    have p3 : 0 < c' ^ (-((5 : ℝ) / 3)) := by positivity
    have hS : S f ≠ 0 := fun h0 => hs (by rw [h0, zero_div])
    field_simp
  have := tendsto_nhds_unique tendsto_const_nhds l2
  have p2 : 0 < c ^ (-((5 : ℝ) / 3)) := by positivity
  rw [div_eq_one_iff_eq p2.ne'] at this
  exact ((Real.rpow_left_inj hc.le hc'.le (by norm_num)).1 this.symm)

lemma total_chirp {Mc eta : ℝ} (hMc : 0 < Mc) (he : 0 < eta) (he' : eta ≤ 1 / 4) :
    ((Mc_eta_to_ms Mc eta).1 + (Mc_eta_to_ms Mc eta).2) * gt =
      Mc * gt / Spec.eta (Mc_eta_to_ms Mc eta).1 (Mc_eta_to_ms Mc eta).2 ^ ((3 : ℝ) / 5) := by
  have hrt := congrArg Prod.snd (C01_roundtrip_Mc_eta Mc eta hMc he he')
  change Spec.eta (Mc_eta_to_ms Mc eta).1 (Mc_eta_to_ms Mc eta).2 = eta at hrt
  rw [hrt]
  unfold Mc_eta_to_ms
  simp only
  ring

lemma eta_back {Mc eta : ℝ} (hMc : 0 < Mc) (he : 0 < eta) (he' : eta ≤ 1 / 4) :
    Spec.eta (Mc_eta_to_ms Mc eta).1 (Mc_eta_to_ms Mc eta).2 = eta :=
  congrArg Prod.snd (C01_roundtrip_Mc_eta Mc eta hMc he he')

/-- a quantity given by a series starting with 1 tends to 1 at low frequency -/
lemma series_one {M : ℝ} (hM : 0 < M) {r : ℝ → ℝ} {a2 a3 a4 a5 a6 a7 a8 a9 : ℝ} (h : ∀ᶠ f in 𝓝[>] 0,
    let v := (Real.pi * M * f) ^ ((1 : ℝ) / 3)
    r f = |1 + a2 * v ^ 2 + a3 * v ^ 3 + a4 * v ^ 4 + a5 * v ^ 5 + a6 * v ^ 6 + a7 * v ^ 7 + a8 * v ^ 8 + a9 * v ^ 9|) :
    Tendsto r (𝓝[>] 0) (𝓝 1) := by
  have hc : Continuous (fun v : ℝ => |1 + a2 * v ^ 2 + a3 * v ^ 3 + a4 * v ^ 4 + a5 * v ^ 5 + a6 * v ^ 6 + a7 * v ^ 7 + a8 * v ^ 8
    + a9 * v ^ 9|) := by fun_prop
  have l := (hc.tendsto 0).comp ((vLow_tendsto hM).mono_right nhdsWithin_le_nhds)
  norm_num at l
  refine l.congr' ?_
  filter_upwards [h] with f h1
  exact h1.symm

lemma series_ne {M : ℝ} (hM : 0 < M) {r : ℝ → ℝ} {a2 a3 a4 a5 a6 a7 a8 a9 : ℝ} (h : ∀ᶠ f in 𝓝[>] 0,
    let v := (Real.pi * M * f) ^ ((1 : ℝ) / 3)
    r f = |1 + a2 * v ^ 2 + a3 * v ^ 3 + a4 * v ^ 4 + a5 * v ^ 5 + a6 * v ^ 6 + a7 * v ^ 7 + a8 * v ^ 8 + a9 * v ^ 9|) :
    ∀ᶠ f in 𝓝[>] 0, r f ≠ 0 := (series_one hM h).eventually_ne one_ne_zero

lemma slow_zero {R : ℝ → ℝ} (a b : ℝ → ℝ) (ha : ContDiff ℝ 1 a) (hb : ContDiff ℝ 1 b)
    (e : ∀ v, 0 < v → R v = v * (a v + b v * (v * Real.log v))) : Slow R 0 := by
  have sv : Slow (fun v : ℝ => v) 0 := Slow.of_smooth (by fun_prop)
  have := sv.mul ((Slow.of_smooth ha.contDiffAt).add ((Slow.of_smooth hb.contDiffAt).mul Slow.vlog))
  rw [zero_mul] at this
  exact this.congr fun v hv => (e v hv).symm

/-! ### C121 -/

section
variable (Mc eta chi1 chi2 D tc phic f_ref : ℝ)

open TaylorF2 in
/-- TaylorF2, with or without tides, however the tidal parameters are given -/
theorem C121_TaylorF2 (hMc : 0 < Mc) (he : 0 < eta) (he' : eta ≤ 1 / 4) (hD : 0 < D) (l1 l2 : ℝ) (b : Bool) :
    ∃ h : ℝ → ℂ, (∀ grid : List ℝ, gen_TaylorF2 grid [Mc, eta, chi1, chi2, l1, l2, D, tc, phic] f_ref b = grid.map h) ∧
      Chirps h (Mc * gt) ∧ ChirpsPN h (Mc * gt) eta ∧
      ChirpsSO h (Mc * gt) eta (spinOrbit (Mc_eta_to_ms Mc eta).1 (Mc_eta_to_ms Mc eta).2 chi1 chi2) := by
  refine ⟨_, fun grid => genF2_eq grid Mc eta chi1 chi2 l1 l2 D tc phic [] f_ref b, ?_⟩
  set th := thetaTOf Mc eta chi1 chi2 l1 l2 b with hth
  obtain ⟨h2, h12, -⟩ := C02_masses_ordered Mc eta hMc he he'
  change 0 < th.m2 at h2
  change th.m2 ≤ th.m1 at h12
  have h1 := lt_of_lt_of_le h2 h12
  have hg := gt_pos
  have hpi := Real.pi_pos
  have hM : 0 < (th.m1 + th.m2) * gt := by positivity
  set K := -2 * phic - (if f_ref ≠ 0 then ref_phasing_at (get_PNPhasing_F2 th.m1 th.m2 th.chi1 th.chi2 th.lambda1 th.lambda2)
    (PI * ((th.m1 + th.m2) * gt)) f_ref else 0) - PI / 4 with hK
  refine chirps_f2 (k := 1) h1 h2 (mul_pos hMc hg) (total_chirp hMc he he') (eta_back hMc he he') th.chi1 th.chi2 th.lambda1 th.lambda2
    (Tidal.get_quadparam_octparam th.lambda1).1 (Tidal.get_quadparam_octparam th.lambda2).1 one_ne_zero
    (R := fun v => 2 * tc / ((th.m1 + th.m2) * gt) * v ^ 3 + K)
    (Φ := fun f => f2phase th tc phic f_ref f - PI / 4) (A := f2amp th D) ?_ ?_ ?_ ?_ ?_
  · exact slow_zero (fun v => v * (2 * tc / ((th.m1 + th.m2) * gt) * v ^ 3 + K)) 0 (by fun_prop) contDiff_const
      fun v _ => by simp; ring
  · filter_upwards [self_mem_nhdsWithin] with f hf
    have hf : 0 < f := hf
    unfold f2phase
    simp only
    rw [phasing_spec h1 h2 th.chi1 th.chi2 th.lambda1 th.lambda2 hf, vLow_cube hM hf, hK]
    simp only [PI]
    field_simp
    ring
  · filter_upwards [self_mem_nhdsWithin] with f hf
    have hf : 0 < f := hf
    have : DifferentiableAt ℝ (fun x => -(Real.sqrt (5 / 24) * Real.pi ^ (-(2 / 3) : ℝ) *
      Real.sqrt (th.m1 * th.m2 / (th.m1 + th.m2) ^ 2) * ((th.m1 + th.m2) * MRSUN) *
      ((th.m1 + th.m2) * gt) * ((th.m1 + th.m2) * gt * x) ^ (-(7 / 6) : ℝ) / (D * m_per_Mpc))) f := by
      have : DifferentiableAt ℝ (fun x : ℝ => ((th.m1 + th.m2) * gt * x) ^ (-(7 / 6) : ℝ)) f :=
        DifferentiableAt.rpow_const (by fun_prop) (Or.inl (by positivity))
      fun_prop
    refine this.congr_of_eventuallyEq ?_
    filter_upwards [Ioi_mem_nhds hf] with x hx
    exact f2amp_eq h1 h2 hx
  · filter_upwards [self_mem_nhdsWithin] with f hf
    have hf : 0 < f := hf
    rw [f2amp_eq h1 h2 hf, neg_ne_zero]
    have := MRSUN_pos
    have := m_per_Mpc_pos
    positivity
  · filter_upwards with f
    unfold f2strain
    rw [one_mul]
    congr 2
    push_cast
    ring

section
open PhenomD

/-- what the phase of PhenomD adds to the textbook phase at low frequency, as a function of `v` -/
noncomputable def restD (th : Theta) (c : Fin 19 → ℝ) (v : ℝ) : ℝ :=
  -(Real.pi / 4) - 3 / (128 * Spec.eta th.m1 th.m2) * Spec.psi6SS (th.m1 / (th.m1 + th.m2)) (th.m2 / (th.m1 + th.m2)) th.chi1 th.chi2 1 1 * v
    + (c 7 / Real.pi * v ^ 3 + 3 / 4 * c 8 / Real.pi ^ ((4 : ℝ) / 3) * v ^ 4 + 3 / 5 * c 9 / Real.pi ^ ((5 : ℝ) / 3) * v ^ 5
      + 1 / 2 * c 10 / Real.pi ^ 2 * v ^ 6) / etaS th

lemma phaseD_low {th : Theta} (h1 : 0 < th.m1) (h2 : 0 < th.m2) (c : Fin 19 → ℝ) {tf : TransFreqs} (o12 : tf.f1 < tf.f2) {f : ℝ}
    (hf : 0 < f) (hf1 : f < tf.f1) :
    Phase f th c tf = Spec.f2Phase th.m1 th.m2 th.chi1 th.chi2 0 0 1 1 f + restD th c (vLow ((th.m1 + th.m2) * gt) f) := by
  have hg := gt_pos
  have hpi := Real.pi_pos
  have hM : 0 < (th.m1 + th.m2) * gt := by positivity
  have hp : ∀ (k : ℕ) (p : ℝ), p = (k : ℝ) / 3 → (f * (th.m1 * gt + th.m2 * gt)) ^ p = vLow ((th.m1 + th.m2) * gt) f ^ k / Real.pi ^ p := by
    intro k p e
    rw [← vLow_pow hM hf k e, eq_div_iff (by positivity), ← Real.mul_rpow (by positivity) hpi.le]
    congr 1; ring
  unfold Phase
  simp only
  rw [Jnp.heaviside_pos (x := tf.f1 - f) (by linarith), Jnp.heaviside_neg (x := f - tf.f1) (by linarith),
    Jnp.heaviside_neg (x := f - tf.f2) (by linarith)]
  unfold get_inspiral_phase
  rw [C40_phase th h1 h2 f hf, hp 4 _ (by norm_num), hp 5 _ (by norm_num), ← vLow]
  have e3 : f * (th.m1 * gt + th.m2 * gt) = vLow ((th.m1 + th.m2) * gt) f ^ 3 / Real.pi := by
    rw [vLow_cube hM hf]; field_simp
  rw [e3]
  unfold restD etaS Ms
  ring

lemma ampD_low {q : QNM} (hq : q.Shipped) (hMc : 0 < Mc) (he : 0 < eta) (he' : eta ≤ 1 / 4) (h1 : |chi1| ≤ 1)
    (h2 : |chi2| ≤ 1) (hD : 0 < D) :
    let th := thetaOf Mc eta chi1 chi2
    ∀ᶠ f in 𝓝[>] 0, 0 < f ∧ f < fCut th ∧ f < (tfOf q th).f1 ∧
      DifferentiableAt ℝ (ampAt th (get_coeffs th) (tfOf q th) D (fCut th)) f ∧ ampAt th (get_coeffs th) (tfOf q th) D (fCut th) f ≠ 0 := by
  intro th
  have hp : th.Physical := thetaOf_physical (chi1 := chi1) (chi2 := chi2) hMc he he' h1 h2
  have hM : 0 < (th.m1 + th.m2) * gt := mul_pos (add_pos hp.m1_pos hp.m2_pos) gt_pos
  obtain ⟨a, b, e4R, eRc, -⟩ := C74_amplitude_regions_ordered q hq th hp
  obtain ⟨o1, -⟩ := tf_order hq hp
  have hc : 0 < fCut th := (a.trans b).trans_le (e4R.trans eRc.le)
  have hs := series_ne hM (relAmpD_series Mc eta chi1 chi2 D 0 0 0 q hq hMc he he' h1 h2 hD)
  filter_upwards [hs, Ioo_mem_nhdsGT hc, Ioo_mem_nhdsGT o1] with f hf h3 h4
  refine ⟨h3.1, h3.2, h4.2, amp_diff hq hp hD h3.1 h3.2, fun h0 => hf ?_⟩
  unfold relAmpD
  rw [genD_eq, List.map_cons, List.map_nil, cutThr_uncut (by simp) (by simpa using h3.2), List.getD_cons_zero, strainAt_below h3.2]
  rw [show ampAt (thetaOf Mc eta chi1 chi2) (get_coeffs (thetaOf Mc eta chi1 chi2)) (tfOf q (thetaOf Mc eta chi1 chi2)) D
    (fCut (thetaOf Mc eta chi1 chi2)) f = 0 from h0]
  simp

/-- the amplitude of PhenomD grows without bound at low frequency -/
lemma ampD_large {q : QNM} (hq : q.Shipped) (hMc : 0 < Mc) (he : 0 < eta) (he' : eta ≤ 1 / 4) (h1 : |chi1| ≤ 1)
    (h2 : |chi2| ≤ 1) (hD : 0 < D) :
    let th := thetaOf Mc eta chi1 chi2
    ∀ᶠ f in 𝓝[>] 0, 1 < |ampAt th (get_coeffs th) (tfOf q th) D (fCut th) f| := by
  intro th
  have hp : th.Physical := thetaOf_physical (chi1 := chi1) (chi2 := chi2) hMc he he' h1 h2
  have hg := gt_pos
  have hM : 0 < (th.m1 + th.m2) * gt := mul_pos (add_pos hp.m1_pos hp.m2_pos) gt_pos
  have hs := series_one hM (relAmpD_series Mc eta chi1 chi2 D 0 0 0 q hq hMc he he' h1 h2 hD)
  have hk : 0 < C * gt / MRSUN := div_pos (mul_pos C_pos gt_pos) MRSUN_pos
  have hN : Tendsto (fun f => C * gt / MRSUN * Spec.newtonianAmp Mc D f) (𝓝[>] 0) atTop := by
    have m0 : 0 < Mc * gt := mul_pos hMc hg
    have r0 : 0 < Real.sqrt (5 / 24) * Real.pi ^ (-(2 / 3) : ℝ) * (Mc * MRSUN) * (Mc * gt) * (Mc * gt) ^ (-(7 / 6) : ℝ) / (D * m_per_Mpc) := by
      have := MRSUN_pos; have := m_per_Mpc_pos; have := Real.pi_pos
      positivity
    have := (tendsto_rpow_neg_nhdsGT_zero (y := -(7 / 6)) (by norm_num)).const_mul_atTop (mul_pos hk r0)
    refine this.congr' ?_
    filter_upwards [self_mem_nhdsWithin] with f hf
    have hf : 0 < f := hf
    unfold Spec.newtonianAmp
    rw [Real.mul_rpow m0.le hf.le]
    ring
  filter_upwards [hs.eventually (lt_mem_nhds (show (1 / 2 : ℝ) < 1 by norm_num)), hN.eventually_gt_atTop 2,
    ampD_low Mc eta chi1 chi2 D hq hMc he he' h1 h2 hD] with f hf hf2 hl
  unfold relAmpD at hf
  rw [genD_eq, List.map_cons, List.map_nil, cutThr_uncut (by simp) (by simpa using hl.2.1), List.getD_cons_zero, strainAt_below hl.2.1,
    norm_mul, mul_comm Complex.I, Complex.norm_exp_ofReal_mul_I, mul_one, Complex.norm_real, Real.norm_eq_abs,
    lt_div_iff₀ (by linarith)] at hf
  change _ < |ampAt th (get_coeffs th) (tfOf q th) D (fCut th) f| at hf
  linarith

/-- what the whole phase of PhenomD adds to the textbook phase at low frequency -/
noncomputable def restPsi (th : Theta) (c : Fin 19 → ℝ) (tf : TransFreqs) (tc phic f_ref v : ℝ) : ℝ :=
  restD th c v + (2 * tc / ((th.m1 + th.m2) * gt) - deriv (fun y => get_IIb_raw_phase y th c tf.f_RD tf.f_damp) (tf.f4 * Ms th) / Real.pi)
    * v ^ 3 + (deriv (fun y => get_IIb_raw_phase y th c tf.f_RD tf.f_damp) (tf.f4 * Ms th) * (f_ref * Ms th) - Phase f_ref th c tf - 2 * phic)

lemma psiD_low {th : Theta} (h1 : 0 < th.m1) (h2 : 0 < th.m2) (c : Fin 19 → ℝ) {tf : TransFreqs} (o12 : tf.f1 < tf.f2) {f : ℝ}
    (hf : 0 < f) (hf1 : f < tf.f1) :
    psiAt th c tf tc phic f_ref f = Spec.f2Phase th.m1 th.m2 th.chi1 th.chi2 0 0 1 1 f
      + restPsi th c tf tc phic f_ref (vLow ((th.m1 + th.m2) * gt) f) := by
  have hg := gt_pos
  have hpi := Real.pi_pos
  have hM : 0 < (th.m1 + th.m2) * gt := by positivity
  unfold psiAt restPsi
  rw [phaseD_low h1 h2 c o12 hf hf1, vLow_cube hM hf, ← Ms_eq]
  simp only [PI]
  field_simp
  ring

lemma restPsi_smooth (th : Theta) (c : Fin 19 → ℝ) (tf : TransFreqs) : ContDiff ℝ 1 (restPsi th c tf tc phic f_ref) := by
  unfold restPsi restD; fun_prop

/-- IMRPhenomD -/
theorem C121_phenomD {q : QNM} (hq : q.Shipped) (hMc : 0 < Mc) (he : 0 < eta) (he' : eta ≤ 1 / 4) (h1 : |chi1| ≤ 1)
    (h2 : |chi2| ≤ 1) (hD : 0 < D) :
    ∃ h : ℝ → ℂ, (∀ grid : List ℝ, grid ≠ [] → (∀ f ∈ grid, f < fCut (thetaOf Mc eta chi1 chi2)) →
        gen_IMRPhenomD q grid [Mc, eta, chi1, chi2, D, tc, phic] f_ref = grid.map h) ∧ Chirps h (Mc * gt) ∧ ChirpsPN h (Mc * gt) eta ∧
      ChirpsSO h (Mc * gt) eta (spinOrbit (Mc_eta_to_ms Mc eta).1 (Mc_eta_to_ms Mc eta).2 chi1 chi2) := by
  set th := thetaOf Mc eta chi1 chi2 with hth
  have hp : th.Physical := thetaOf_physical (chi1 := chi1) (chi2 := chi2) hMc he he' h1 h2
  have hg := gt_pos
  have hpi := Real.pi_pos
  have p1 := hp.m1_pos
  have p2 := hp.m2_pos
  have hM : 0 < (th.m1 + th.m2) * gt := by positivity
  obtain ⟨o1, o12, -⟩ := tf_order hq hp
  set c := get_coeffs th with hc
  set tf := tfOf q th with htf
  have hlow := ampD_low Mc eta chi1 chi2 D hq hMc he he' h1 h2 hD
  refine ⟨strainAt th c tf D tc phic f_ref (fCut th), fun grid hne hgr => ?_, ?_⟩
  · rw [genD_eq, cutThr_uncut hne (hgr _ (Jnp.getD_mem (by have := List.length_pos_of_ne_nil hne; omega)))]
  refine chirps_f2 (k := 1) p1 p2 (mul_pos hMc hg) (total_chirp hMc he he') (eta_back hMc he he') th.chi1 th.chi2 0 0 1 1 one_ne_zero
    (R := restPsi th c tf tc phic f_ref) (Φ := psiAt th c tf tc phic f_ref) (A := ampAt th c tf D (fCut th)) ?_
    (hlow.mono fun f hf => psiD_low tc phic f_ref p1 p2 c o12 hf.1 hf.2.2.1) (hlow.mono fun f h => h.2.2.2.1)
    (hlow.mono fun f h => h.2.2.2.2) (hlow.mono fun f h => ?_)
  · have := restPsi_smooth tc phic f_ref th c tf
    exact slow_zero (fun v => v * restPsi th c tf tc phic f_ref v) 0 (by fun_prop) contDiff_const fun v _ => by simp; ring
  · rw [strainAt_below h.2.1, one_mul]

end

section
open XAS

lemma ampX_low (hMc : 0 < Mc) (he : 0 < eta) (he' : eta ≤ 1 / 4) (h1 : |chi1| ≤ 1) (h2 : |chi2| ≤ 1) (hD : 0 < D) :
    let th := thetaOf Mc eta chi1 chi2
    ∀ᶠ f in 𝓝[>] 0, DifferentiableAt ℝ (fun x => Amp x th PhenomX_amp_coeff_table D) f ∧ Amp f th PhenomX_amp_coeff_table D ≠ 0 := by
  intro th
  have hp : th.Physical := thetaOf_physical (chi1 := chi1) (chi2 := chi2) hMc he he' h1 h2
  have hM : 0 < (th.m1 + th.m2) * gt := mul_pos (add_pos hp.m1_pos hp.m2_pos) gt_pos
  obtain ⟨-, -, -, ⟨hIN, hPk, -, -⟩, -⟩ := C92_regions_ordered th hp
  have hIN0 : 0 < ampMatchIN th := lt_trans (by norm_num) hIN
  have hs := series_ne hM (relAmpX_series Mc eta chi1 chi2 D 0 0 0 hMc he he' h1 h2 hD)
  filter_upwards [hs, Ioo_mem_nhdsGT (div_pos hIN0 hM)] with f hf h3
  constructor
  · have hg := gt_pos
    have hfM : 0 < f * ((th.m1 + th.m2) * gt) := mul_pos h3.1 hM
    set K := 2 * Real.sqrt (5 / (64 * PI)) * ((th.m1 + th.m2) * gt) ^ 2 / (D * m_per_Mpc / C) *
      (Real.sqrt (2 * (th.m1 * gt * (th.m2 * gt) / ((th.m1 + th.m2) * gt) ^ 2) / 3) * PI ^ (-((1 : ℝ) / 6))) with hK
    have d1 : DifferentiableAt ℝ (fun x : ℝ => (x * ((th.m1 + th.m2) * gt)) ^ (-((7 : ℝ) / 6))) f :=
      DifferentiableAt.rpow_const (by fun_prop) (Or.inl hfM.ne')
    have d2 : DifferentiableAt ℝ (fun x : ℝ => get_inspiral_Amp (x * ((th.m1 + th.m2) * gt)) th PhenomX_amp_coeff_table) f :=
      ((cd_ins_Amp th PhenomX_amp_coeff_table hfM).differentiableAt (by norm_num)).comp f
        (f := fun x : ℝ => x * ((th.m1 + th.m2) * gt)) (by fun_prop)
    refine ((d2.const_mul K).mul d1).congr_of_eventuallyEq ?_
    filter_upwards [Ioo_mem_nhds h3.1 h3.2] with x hx
    have hx' : x * ((th.m1 + th.m2) * gt) < ampMatchIN th := (lt_div_iff₀ hM).1 hx.2
    have hin : 0 < (get_mergerringdown_Amp (x * ((th.m1 + th.m2) * gt)) th PhenomX_amp_coeff_table).2 - x * ((th.m1 + th.m2) * gt) := by
      have : (get_mergerringdown_Amp (x * ((th.m1 + th.m2) * gt)) th PhenomX_amp_coeff_table).2 = ampPeak th PhenomX_amp_coeff_table := rfl
      rw [this]; linarith
    unfold Amp
    simp only [Pi.mul_apply]
    rw [show th.m1 * gt + th.m2 * gt = (th.m1 + th.m2) * gt by ring,
      Jnp.heaviside_pos (x := ampMatchIN th - x * ((th.m1 + th.m2) * gt)) (by linarith),
      Jnp.heaviside_neg (x := x * ((th.m1 + th.m2) * gt) - ampMatchIN th) (by linarith),
      Jnp.heaviside_neg (x := x * ((th.m1 + th.m2) * gt) - _) (by linarith), hK]
    ring
  · intro h0
    refine hf ?_
    unfold relAmpX
    rw [genX_norm [f] Mc eta chi1 chi2 D 0 0 0 0 (by simp), List.getD_cons_zero, show Amp f (thetaOf Mc eta chi1 chi2) _ D = 0 from h0]
    simp

/-- IMRPhenomXAS -/
theorem C121_XAS (hMc : 0 < Mc) (he : 0 < eta) (he' : eta ≤ 1 / 4) (h1 : |chi1| ≤ 1) (h2 : |chi2| ≤ 1) (hD : 0 < D) :
    ∃ h : ℝ → ℂ, (∀ grid : List ℝ, gen_IMRPhenomXAS grid [Mc, eta, chi1, chi2, D, tc, phic] f_ref = grid.map h) ∧
      Chirps h (Mc * gt) ∧ ChirpsPN h (Mc * gt) eta ∧
      ChirpsSO h (Mc * gt) eta (spinOrbit (Mc_eta_to_ms Mc eta).1 (Mc_eta_to_ms Mc eta).2 chi1 chi2) := by
  set th := thetaOf Mc eta chi1 chi2 with hth
  have hp : th.Physical := thetaOf_physical (chi1 := chi1) (chi2 := chi2) hMc he he' h1 h2
  have hg := gt_pos
  have hpi := Real.pi_pos
  have p1 := hp.m1_pos
  have p2 := hp.m2_pos
  have hM : 0 < (th.m1 + th.m2) * gt := by positivity
  have h12 : th.m2 ≤ th.m1 := (C02_masses_ordered Mc eta hMc he he').2.1
  have hlow := ampX_low Mc eta chi1 chi2 D hMc he he' h1 h2 hD
  obtain ⟨s, hs⟩ := C68_phase_physical th hp PhenomX_phase_coeff_table h12
  refine ⟨_, fun grid => genX_eq grid Mc eta chi1 chi2 D tc phic [] f_ref, ?_⟩
  set η := Spec.eta th.m1 th.m2
  set N := 3 / (128 * η)
  set b1 := N * Spec.psi5 η (Spec.delta th.m1 th.m2) ((th.chi1 + th.chi2) / 2) ((th.chi1 - th.chi2) / 2) * (1 + Real.log Real.pi)
  set b2 := N * (Spec.psi7SS (th.m1 / (th.m1 + th.m2)) (th.m2 / (th.m1 + th.m2)) th.chi1 th.chi2
    + Spec.psi7SSS (th.m1 / (th.m1 + th.m2)) (th.m2 / (th.m1 + th.m2)) th.chi1 th.chi2)
  set b3 := N * Spec.psi8 η (Spec.delta th.m1 th.m2) ((th.chi1 + th.chi2) / 2) ((th.chi1 - th.chi2) / 2)
  set L := phase_slope th PhenomX_phase_coeff_table with hL
  set K := Phase f_ref th PhenomX_phase_coeff_table + L * (f_ref * PhenomD.Ms th) + 3 / 4 * Real.pi + phic with hK
  set S : ℝ → ℝ := fun v => K - b1 + b2 * v ^ 2 - b3 * v ^ 3 - (s 0 * v ^ 3 + s 1 * v ^ 4 + s 2 * v ^ 5 + s 3 * v ^ 6)
    - (L / Real.pi + 2 * tc / ((th.m1 + th.m2) * gt)) * v ^ 3 with hS
  refine chirps_f2 (k := 1) p1 p2 (mul_pos hMc hg) (total_chirp hMc he he') (eta_back hMc he he') th.chi1 th.chi2 0 0 1 1 one_ne_zero
    (R := fun v => S v + 3 * b3 * v ^ 2 * (v * Real.log v))
    (Φ := fun f => -psiAt th PhenomX_phase_coeff_table tc phic f_ref f) (A := fun f => Amp f th PhenomX_amp_coeff_table D) ?_ ?_
    (hlow.mono fun f h => h.1) (hlow.mono fun f h => h.2) (Eventually.of_forall fun f => ?_)
  · exact slow_zero (fun v => v * S v) (fun v => v * (3 * b3 * v ^ 2)) (by rw [hS]; fun_prop) (by fun_prop)
      fun v _ => by ring
  · filter_upwards [Ioo_mem_nhdsGT (show (0 : ℝ) < 0.005 / ((th.m1 + th.m2) * gt) by positivity)] with f hf
    have := hs f hf.1 ((lt_div_iff₀ hM).1 hf.2)
    simp only at this
    unfold psiAt
    rw [this, ← vLow, hS, hK, ← hL]
    simp only
    have e3 := vLow_cube hM hf.1
    rw [show f * PhenomD.Ms th = vLow ((th.m1 + th.m2) * gt) f ^ 3 / Real.pi by rw [e3, ← PhenomD.Ms_eq]; field_simp,
      show 2 * PI * f * tc = 2 * tc / ((th.m1 + th.m2) * gt) * vLow ((th.m1 + th.m2) * gt) f ^ 3 by
        rw [e3]; simp only [PI]; field_simp]
    simp only [PI]
    ring
  · unfold strainAt
    rw [one_mul, neg_neg]

end
section
open PhenomD Pv2 V3

/-- IMRPhenomPv2 without in-plane spins: the plus polarisation -/
theorem C121_Pv2 {q : QNM} (hq : q.Shipped) (phiRef incl : ℝ) (hMc : 0 < Mc) (he : 0 < eta) (he' : eta ≤ 1 / 4) (h1 : |chi1| ≤ 1)
    (h2 : |chi2| ≤ 1) (hD : 0 < D) (hf : 0 < f_ref)
    (hL : LplusS (mHeavy Mc eta) (mLight Mc eta) (0, 0, chi1) (0, 0, chi2) f_ref ≠ 0) :
    let th := thetaOf Mc eta chi1 chi2
    ∃ hp hc : ℝ → ℂ, (∀ grid : List ℝ, grid ≠ [] → (∀ f ∈ grid, f < fCut th) →
        gen_IMRPhenomPv2_hphc q grid [Mc, eta, 0, 0, chi1, 0, 0, chi2, D, tc, phiRef, incl] f_ref = .ok (grid.map hp, grid.map hc)) ∧
      Chirps hp (Mc * gt) ∧ ChirpsPN hp (Mc * gt) eta ∧
      ChirpsSO hp (Mc * gt) eta (spinOrbit (Mc_eta_to_ms Mc eta).1 (Mc_eta_to_ms Mc eta).2 chi1 chi2) := by
  intro th
  set tf := tfOf q th with htf
  set M := (th.m1 + th.m2) * gt with hMd
  set c := get_coeffs th with hc
  have hp : th.Physical := thetaOf_physical (chi1 := chi1) (chi2 := chi2) hMc he he' h1 h2
  have hM : M = Ms th := Ms_eq th
  obtain ⟨o1, o12, o24, -, -⟩ := tf_order hq hp
  obtain ⟨a, b, e4R, eRc, d, -, -, -⟩ := C74_amplitude_regions_ordered q hq th hp
  have f40 : 0 < tf.f4 := a.trans b
  have hsamp := fun grid => aligned_samples q grid Mc eta chi1 chi2 D tc phiRef incl f_ref hMc he he' hf hL
  simp only at hsamp
  set L := LplusS (mHeavy Mc eta) (mLight Mc eta) (0, 0, chi1) (0, 0, chi2) f_ref with hLd
  set z := (frameP (mHeavy Mc eta) (mLight Mc eta) (0, 0, chi1) (0, 0, chi2) f_ref phiRef incl).zeta_polariz with hz
  set x := L / |L| * Real.cos incl with hx
  set t0 := t0P q (mHeavy Mc eta) (mLight Mc eta) (0, 0, chi1) (0, 0, chi2) 0 with ht0
  have hcorr : ∀ f, corrP q (mHeavy Mc eta) (mLight Mc eta) (0, 0, chi1) (0, 0, chi2) 0 tc f =
      Complex.exp (Complex.I * ((-(2 * PI * t0 * f) - M * tc * f : ℝ) : ℂ)) := by
    intro f
    have hMl : M = (mLight Mc eta + mHeavy Mc eta) * gt := by
      rw [add_comm]; rfl
    unfold corrP
    rw [← ht0, show ((Real.cos (2 * PI * f * t0) : ℝ) : ℂ) - Complex.I * ((Real.sin (2 * PI * f * t0) : ℝ) : ℂ) =
      Complex.exp (((-(2 * PI * f * t0) : ℝ) : ℂ) * Complex.I) by
        rw [Complex.exp_mul_I, ← Complex.ofReal_cos, ← Complex.ofReal_sin, Real.cos_neg, Real.sin_neg]; push_cast; ring,
      ← Complex.exp_add, hMl]
    congr 1
    push_cast
    ring
  set g : ℝ → ℂ := fun f => (ampAt th c tf D (fCut th) f : ℂ) * Complex.exp (-Complex.I * ((Phase f th c tf : ℝ) : ℂ))
    * corrP q (mHeavy Mc eta) (mLight Mc eta) (0, 0, chi1) (0, 0, chi2) 0 tc f with hg
  refine ⟨fun f => (rotP z ((((1 + x ^ 2) / 2 : ℝ) : ℂ) * g f, -(Complex.I * g f * (x : ℂ)))).1,
    fun f => (rotP z ((((1 + x ^ 2) / 2 : ℝ) : ℂ) * g f, -(Complex.I * g f * (x : ℂ)))).2, fun grid hne hgr => ?_, ?_⟩
  · obtain ⟨K, hK, -, e⟩ := hsamp grid
    rw [cutThr_uncut hne (hgr _ (Jnp.getD_mem (by have := List.length_pos_of_ne_nil hne; omega)))] at e
    rw [e]
    simp only [hg, hK]
    rfl
  · set k : ℂ := ((Real.cos (2 * z) : ℝ) : ℂ) * (((1 + x ^ 2) / 2 : ℝ) : ℂ) - ((Real.sin (2 * z) : ℝ) : ℂ) * (Complex.I * (x : ℂ)) with hk
    have hk0 : k ≠ 0 := by
      obtain ⟨-, -, hzz, -⟩ := hsamp []
      intro h0
      have hre : Real.cos (2 * z) * ((1 + x ^ 2) / 2) = 0 := by
        have := congrArg Complex.re h0
        rw [hk, Complex.sub_re, Complex.re_ofReal_mul, Complex.ofReal_re, Complex.re_ofReal_mul] at this
        simpa using this
      have him : Real.sin (2 * z) * x = 0 := by
        have := congrArg Complex.im h0
        rw [hk, Complex.sub_im, Complex.im_ofReal_mul, Complex.ofReal_im, Complex.im_ofReal_mul] at this
        simpa using this
      have hc0 : Real.cos (2 * z) = 0 := by
        rcases mul_eq_zero.1 hre with h | h
        · exact h
        · nlinarith [sq_nonneg x]
      have hs0 : Real.sin (2 * z) ≠ 0 := by
        intro h
        have := Real.sin_sq_add_cos_sq (2 * z)
        rw [h, hc0] at this; norm_num at this
      have hx0 : x = 0 := (mul_eq_zero.1 him).resolve_left hs0
      have hci : Real.cos incl = 0 := by
        rcases mul_eq_zero.1 hx0 with h | h
        · exact absurd h (div_ne_zero hL (abs_ne_zero.2 hL))
        · exact h
      have hsi : Real.sin incl ≠ 0 := by
        intro h
        have := Real.sin_sq_add_cos_sq incl
        rw [h, hci] at this; norm_num at this
      rw [(hzz hsi).1] at hc0
      norm_num at hc0
    have hg' := gt_pos
    have hpi := Real.pi_pos
    have p1 := hp.m1_pos
    have p2 := hp.m2_pos
    have hM0 : 0 < M := by rw [hMd]; positivity
    have hlow := ampD_low Mc eta chi1 chi2 D hq hMc he he' h1 h2 hD
    refine chirps_f2 (k := k) p1 p2 (mul_pos hMc hg') (total_chirp hMc he he') (eta_back hMc he he') th.chi1 th.chi2 0 0 1 1 hk0
      (R := fun v => restD th c v + (2 * t0 / M + tc / Real.pi) * v ^ 3)
      (Φ := fun y => Phase y th c tf + (2 * PI * t0 * y + M * tc * y)) (A := ampAt th c tf D (fCut th)) ?_ ?_
      (hlow.mono fun f h => h.2.2.2.1) (hlow.mono fun f h => h.2.2.2.2) (Eventually.of_forall fun y => ?_)
    · exact slow_zero (fun v => v * (restD th c v + (2 * t0 / M + tc / Real.pi) * v ^ 3)) 0 (by unfold restD; fun_prop) contDiff_const
        fun v _ => by simp; ring
    · filter_upwards [hlow] with f hf
      rw [phaseD_low p1 p2 c o12 hf.1 hf.2.2.1, ← hMd, vLow_cube hM0 hf.1]
      simp only [PI]
      field_simp
      ring
    · simp only [rotP, hg, hcorr, hk]
      have hE : Complex.exp (Complex.I * ((-(Phase y th c tf + (2 * PI * t0 * y + M * tc * y)) : ℝ) : ℂ)) =
        Complex.exp (-Complex.I * ((Phase y th c tf : ℝ) : ℂ)) * Complex.exp (Complex.I * ((-(2 * PI * t0 * y) - M * tc * y : ℝ) : ℂ)) := by
        rw [← Complex.exp_add]; congr 1; push_cast; ring
      rw [hE]
      ring

end

section
open PhenomD NRTidalv2

/-- the square root of the frequency variable of the tidal fits is `v` -/
lemma xAt_low {t : ThetaT} (h1 : 0 < t.m1) (h2 : 0 < t.m2) {f : ℝ} (hf : 0 < f) : xAt t f = vLow ((t.m1 + t.m2) * gt) f ^ 2 := by
  have hM : 0 < (t.m1 + t.m2) * gt := mul_pos (add_pos h1 h2) gt_pos
  unfold xAt
  rw [← Ms_eq]
  exact vLow_pow hM hf 2 (by norm_num)

/-- the tidal and spin-induced phases, as a function of `v` -/
lemma extra_slow {t : ThetaT} (h1 : 0 < t.m1) (h2 : 0 < t.m2) :
    Slow (fun v => v ^ 2 * (get_tidal_phase (v ^ 2) t (Tidal.get_kappa t) + get_spin_phase_correction (v ^ 2) t)) 0 := by
  set K := -(39 / 16) * Tidal.get_kappa t / Spec.eta t.m1 t.m2 with hK
  have e : ∃ s2 s3 s4 : ℝ, ∀ v : ℝ, 0 < v → get_spin_phase_correction (v ^ 2) t = s2 / v + s3 * v + s4 * v ^ 2 := by
    have g : ∃ p a b d : ℝ, ∀ x, get_spin_phase_correction x t = p * (a * x ^ (-((1 : ℝ) / 2)) + b * x ^ ((1 : ℝ) / 2) + d * x) :=
      ⟨_, _, _, _, fun _ => rfl⟩
    obtain ⟨p, a, b, d, g⟩ := g
    refine ⟨p * a, p * b, p * d, fun v hv => ?_⟩
    have r1 : (v ^ 2) ^ (-((1 : ℝ) / 2)) = 1 / v := by
      rw [← Real.rpow_natCast, ← Real.rpow_mul hv.le]; norm_num [Real.rpow_neg_one]
    have r2 : (v ^ 2) ^ ((1 : ℝ) / 2) = v := by
      rw [← Real.rpow_natCast, ← Real.rpow_mul hv.le]; norm_num
    rw [g, r1, r2]
    ring
  obtain ⟨s2, s3, s4, hs⟩ := e
  have sv : Slow (fun v : ℝ => v) 0 := Slow.of_smooth (P := fun v : ℝ => v) (by fun_prop)
  have sp : Slow (fun v : ℝ => K * v ^ 6 * (padeN v / padeD v) + (s2 + s3 * v ^ 2 + s4 * v ^ 3))
      (K * 0 ^ 6 * (padeN 0 / padeD 0) + (s2 + s3 * 0 ^ 2 + s4 * 0 ^ 3)) := by
    refine Slow.of_smooth (P := fun v : ℝ => K * v ^ 6 * (padeN v / padeD v) + (s2 + s3 * v ^ 2 + s4 * v ^ 3)) ?_
    have d1 : ContDiffAt ℝ 1 padeN 0 := by unfold padeN; fun_prop
    have d2 : ContDiffAt ℝ 1 padeD 0 := by unfold padeD; fun_prop
    have d3 : padeD 0 ≠ 0 := by unfold padeD; norm_num
    exact (ContDiffAt.mul (by fun_prop) (d1.div d2 d3)).add (by fun_prop)
  have := sv.mul sp
  rw [zero_mul] at this
  refine this.congr fun v hv => ?_
  rw [tidal_phase_sq t h1 h2 _ hv.le, hs v hv, hK]
  field_simp

/-- IMRPhenomD_NRTidalv2, with or without the taper -/
theorem C121_NRTidalv2 {q : QNM} (hq : q.Shipped) (hMc : 0 < Mc) (he : 0 < eta) (he' : eta ≤ 1 / 4) (h1 : |chi1| ≤ 1)
    (h2 : |chi2| ≤ 1) (hD : 0 < D) (l1 l2 : ℝ) (hl1 : 0 ≤ l1) (hl2 : 0 ≤ l2) (nt : Bool) :
    ∃ h : ℝ → ℂ, (∀ grid : List ℝ, grid ≠ [] → (∀ f ∈ grid, f < fCut (thetaOf Mc eta chi1 chi2)) →
        gen_IMRPhenomD_NRTidalv2 q grid [Mc, eta, chi1, chi2, l1, l2, D, tc, phic] f_ref false nt = grid.map h) ∧ Chirps h (Mc * gt) ∧ ChirpsPN h (Mc * gt) eta ∧
      ChirpsSO h (Mc * gt) eta (spinOrbit (Mc_eta_to_ms Mc eta).1 (Mc_eta_to_ms Mc eta).2 chi1 chi2) := by
  set t := thetaTOf Mc eta chi1 chi2 l1 l2 false with ht
  set th := thetaOf Mc eta chi1 chi2 with hth
  have hb : bbh t = th := rfl
  have hp : th.Physical := thetaOf_physical (chi1 := chi1) (chi2 := chi2) hMc he he' h1 h2
  have hg := gt_pos
  have hpi := Real.pi_pos
  have p1 : 0 < t.m1 := hp.m1_pos
  have p2 : 0 < t.m2 := hp.m2_pos
  have hM : 0 < (t.m1 + t.m2) * gt := by positivity
  obtain ⟨o1, o12, -⟩ := tf_order hq hp
  set c := get_coeffs th with hc
  set tf := tfOf q th with htf
  have hlow := ampD_low Mc eta chi1 chi2 D hq hMc he he' h1 h2 hD
  have hk : 0 ≤ Tidal.get_kappa t := by
    rw [C43_kappa t p1 p2]
    have e1 : t.lambda1 = l1 := rfl
    have e2 : t.lambda2 = l2 := rfl
    rw [e1, e2]
    unfold Spec.lambdaTilde
    positivity
  have hfm := C48_positive t p1 p2 hk
  refine ⟨nrStrain q t D tc phic f_ref nt (fCut th), fun grid hne hgr => ?_, ?_⟩
  · rw [genNR_eq, cutThr_uncut hne (hgr _ (Jnp.getD_mem (by have := List.length_pos_of_ne_nil hne; omega)))]
  have hx : ∀ᶠ f in 𝓝[>] 0, 0 < f ∧ f < _get_merger_frequency t (Tidal.get_kappa t) := Ioo_mem_nhdsGT hfm
  set R : ℝ → ℝ := fun v => get_tidal_phase (v ^ 2) t (Tidal.get_kappa t) + get_spin_phase_correction (v ^ 2) t with hR
  refine chirps_f2 (k := 1) p1 p2 (mul_pos hMc hg) (total_chirp hMc he he') (eta_back hMc he he') t.chi1 t.chi2 0 0 1 1 one_ne_zero
    (R := fun v => restPsi th c tf tc phic f_ref v + R v) (Φ := fun f => psiAt th c tf tc phic f_ref f + extraPhase t f)
    (A := fun f => ampAt th c tf D (fCut th) f + get_tidal_amplitude (xAt t f) t (Tidal.get_kappa t) D) ?_ ?_ ?_ ?_ ?_
  · have := restPsi_smooth tc phic f_ref th c tf
    have s1 : Slow (fun v => v ^ 2 * restPsi th c tf tc phic f_ref v) 0 :=
      slow_zero (fun v => v * restPsi th c tf tc phic f_ref v) 0 (by fun_prop) contDiff_const fun v _ => by simp; ring
    have := s1.add (extra_slow p1 p2)
    rw [add_zero] at this
    exact this.congr fun v _ => by rw [hR]; ring
  · filter_upwards [hlow] with f hf
    have e := psiD_low tc phic f_ref (th := th) p1 p2 c o12 hf.1 hf.2.2.1
    rw [e, hR, extraPhase, xAt_low p1 p2 hf.1, add_assoc]
    rfl
  · filter_upwards [hlow] with f hf
    refine hf.2.2.2.1.add ?_
    have hx0 : 0 < xAt t f := by rw [xAt_low p1 p2 hf.1]; have : 0 < vLow ((t.m1 + t.m2) * gt) f := Real.rpow_pos_of_pos (by have := hf.1; positivity) _; positivity
    have dx : DifferentiableAt ℝ (xAt t) f := by
      unfold xAt
      rw [← Ms_eq]
      exact DifferentiableAt.rpow_const (by fun_prop) (Or.inl (by have := hf.1; change (Real.pi * ((t.m1 + t.m2) * gt) * f) ≠ 0; positivity))
    have da : DifferentiableAt ℝ (fun x => get_tidal_amplitude x t (Tidal.get_kappa t) D) (xAt t f) := by
      unfold get_tidal_amplitude
      simp only
      have r : ∀ p : ℝ, DifferentiableAt ℝ (fun x : ℝ => x ^ p) (xAt t f) := fun p =>
        DifferentiableAt.rpow_const (by fun_prop) (Or.inl hx0.ne')
      have := r (13 / 4)
      have := r (289 / 100)
      refine DifferentiableAt.mul_const (DifferentiableAt.mul (by fun_prop) (DifferentiableAt.div (by fun_prop) (by fun_prop) (by positivity))) _
    exact da.comp f dx
  · have hT : Tendsto (fun f => get_tidal_amplitude (xAt t f) t (Tidal.get_kappa t) D) (𝓝[>] 0) (𝓝 0) := by
      have c0 := (C78_amplitude_continuous t (Tidal.get_kappa t) D) 0 (by simp)
      have z : get_tidal_amplitude 0 t (Tidal.get_kappa t) D = 0 := by
        unfold get_tidal_amplitude
        simp only
        rw [Real.zero_rpow (by norm_num : (13 : ℝ) / 4 ≠ 0)]
        ring
      have l := c0.tendsto
      rw [z] at l
      refine l.comp (tendsto_nhdsWithin_iff.2 ⟨?_, ?_⟩)
      · have := ((vLow_tendsto hM).mono_right nhdsWithin_le_nhds).pow 2
        rw [zero_pow (by norm_num)] at this
        refine this.congr' ?_
        filter_upwards [self_mem_nhdsWithin] with f hf
        exact (xAt_low p1 p2 hf).symm
      · filter_upwards [self_mem_nhdsWithin] with f hf
        rw [xAt_low p1 p2 hf]
        exact sq_nonneg (vLow ((t.m1 + t.m2) * gt) f)
    filter_upwards [ampD_large Mc eta chi1 chi2 D hq hMc he he' h1 h2 hD,
      hT.eventually (Metric.ball_mem_nhds 0 one_pos)] with f ha hb h0
    rw [Real.dist_eq, sub_zero] at hb
    have e : ampAt th c tf D (fCut th) f = -get_tidal_amplitude (xAt t f) t (Tidal.get_kappa t) D := by linarith
    change 1 < |ampAt th c tf D (fCut th) f| at ha
    rw [e, abs_neg] at ha
    linarith
  · filter_upwards [hlow, hx] with f hf hxf
    rw [nrStrain_below (q := q) (D := D) (tc := tc) (phic := phic) (f_ref := f_ref) (nt := nt) hf.2.1]
    have e : taperAt t nt f = 1 := by
      unfold taperAt
      split_ifs
      · rfl
      · unfold get_planck_taper
        rw [if_pos hxf.2]
        rfl
    rw [e, one_mul, one_mul]
    rfl

end

open Pv2 in
/-- the hypotheses are met -/
example : (qnmTable 1e-7).Shipped ∧ |(0.3 : ℝ)| ≤ 1 ∧ |(-0.2 : ℝ)| ≤ 1 ∧ (0 : ℝ) < 0.24 ∧ (0.24 : ℝ) ≤ 1 / 4 ∧
    LplusS (mHeavy 30 0.24) (mLight 30 0.24) (0, 0, 0.3) (0, 0, -0.2) 20 ≠ 0 := by
  obtain ⟨h2, h12, -⟩ := C02_masses_ordered 30 0.24 (by norm_num) (by norm_num) (by norm_num)
  refine ⟨C93_shipped (by norm_num) (by norm_num), by norm_num [abs_le], by norm_num [abs_le], by norm_num, by norm_num, ?_⟩
  refine (LplusS_pos_arr (lt_of_lt_of_le h2 h12) h2 (by norm_num) ?_).ne'
  have := pow_le_pow_left₀ h2.le h12 2
  have h0 := sq_nonneg (mHeavy 30 0.24)
  change (mLight 30 0.24) ^ 2 ≤ (mHeavy 30 0.24) ^ 2 at this
  linarith

end
end Ripple

/-
  Property theorems C122: what the low frequencies of a waveform fix.
-/
import Verif.Props.Chirp
import Verif.Props.F2vsD

namespace Ripple
open Filter Topology Set

/-! ### the conventions a comparison leaves free -/

/-- `h'` is `h` delayed by `t` seconds and turned by the phase `φ`, at all low frequencies -/
def ShiftedLow (φ t : ℝ) (h h' : ℝ → ℂ) : Prop :=
  ∀ᶠ f in 𝓝[>] (0 : ℝ), h' f = Complex.exp (Complex.I * ((φ - 2 * Real.pi * t * f : ℝ) : ℂ)) * h f

lemma far_so {c : ℝ} (hc : 0 < c) :
    Tendsto (fun f : ℝ => 5 / 256 * c ^ (-((5 : ℝ) / 3)) * (Real.pi * f) ^ (-((8 : ℝ) / 3)) * (Real.pi * f)) (𝓝[>] 0) atTop := by
  have hpi := Real.pi_pos
  have h0 : Tendsto (fun f : ℝ => Real.pi * f) (𝓝[>] 0) (𝓝[>] 0) := by
    refine tendsto_nhdsWithin_iff.2 ⟨?_, ?_⟩
    · have : Tendsto (fun f : ℝ => Real.pi * f) (𝓝 0) (𝓝 (Real.pi * 0)) := (continuous_const_mul Real.pi).tendsto 0
      rw [mul_zero] at this
      exact this.mono_left nhdsWithin_le_nhds
    · filter_upwards [self_mem_nhdsWithin] with f hf
      exact mul_pos hpi hf
  have h1 := (tendsto_rpow_neg_nhdsGT_zero (show -((5 : ℝ) / 3) < 0 by norm_num)).comp h0
  have h2 := h1.const_mul_atTop (show 0 < 5 / 256 * c ^ (-((5 : ℝ) / 3)) by positivity)
  refine h2.congr' ?_
  filter_upwards [self_mem_nhdsWithin] with f hf
  have hf : 0 < f := hf
  simp only [Function.comp]
  have e : (Real.pi * f) ^ (-((8 : ℝ) / 3)) * (Real.pi * f) = (Real.pi * f) ^ (-((5 : ℝ) / 3)) := by
    nth_rewrite 2 [← Real.rpow_one (Real.pi * f)]
    rw [← Real.rpow_add (by positivity)]
    norm_num
  rw [mul_assoc _ _ (Real.pi * f), e]

lemma Arrives.shift {h h' : ℝ → ℂ} {φ t : ℝ} {T : ℝ → ℝ} (t1 : ∀ᶠ f in 𝓝[>] 0, Arrives h f (T f)) (s : ShiftedLow φ t h h') :
    ∀ᶠ f in 𝓝[>] 0, Arrives h' f (T f + t) := by
  have hpi := Real.pi_pos
  obtain ⟨u, hu, hs⟩ := mem_nhdsGT_iff_exists_Ioo_subset.1 s
  filter_upwards [t1, Ioo_mem_nhdsGT hu] with f hf hfu
  obtain ⟨d, hd, hne, ed⟩ := hf
  have hE : HasDerivAt (fun f : ℝ => Complex.exp (Complex.I * ((φ - 2 * Real.pi * t * f : ℝ) : ℂ)))
      (Complex.exp (Complex.I * ((φ - 2 * Real.pi * t * f : ℝ) : ℂ)) * (Complex.I * ((-(2 * Real.pi * t) : ℝ) : ℂ))) f := by
    have r : HasDerivAt (fun f : ℝ => φ - 2 * Real.pi * t * f) (-(2 * Real.pi * t)) f := by
      simpa using ((hasDerivAt_id f).const_mul (2 * Real.pi * t)).const_sub φ
    exact ((r.ofReal_comp).const_mul Complex.I).cexp
  have hm := hE.mul hd
  have ev : h' =ᶠ[𝓝 f] fun f => Complex.exp (Complex.I * ((φ - 2 * Real.pi * t * f : ℝ) : ℂ)) * h f := by
    filter_upwards [Ioo_mem_nhds hfu.1 hfu.2] with y hy
    exact hs hy
  refine ⟨_, hm.congr_of_eventuallyEq ev, ?_, ?_⟩
  · rw [ev.eq_of_nhds]
    exact mul_ne_zero (Complex.exp_ne_zero _) hne
  · rw [ev.eq_of_nhds]
    set E := Complex.exp (Complex.I * ((φ - 2 * Real.pi * t * f : ℝ) : ℂ)) with hEd
    have hE0 : E ≠ 0 := Complex.exp_ne_zero _
    have q : (E * (Complex.I * ((-(2 * Real.pi * t) : ℝ) : ℂ)) * h f + E * d) / (E * h f) =
        Complex.I * ((-(2 * Real.pi * t) : ℝ) : ℂ) + d / h f := by field_simp
    rw [q, Complex.add_im, ed]
    simp only [Complex.mul_im, Complex.I_re, Complex.I_im, Complex.ofReal_re, Complex.ofReal_im]
    field_simp
    ring

lemma ChirpsSO.shift {h h' : ℝ → ℂ} {c η β φ t : ℝ} (hc : 0 < c) (a : ChirpsSO h c η β) (s : ShiftedLow φ t h h') : ChirpsSO h' c η β := by
  obtain ⟨T, t1, t2⟩ := a
  refine ⟨fun f => T f + t, Arrives.shift t1 s, ?_⟩
  have l := t2.add ((tendsto_const_nhds (x := t)).div_atTop (far_so hc))
  rw [add_zero] at l
  refine l.congr fun f => ?_
  rw [← div_div t, ← add_div]
  ring

/-- the coefficient of the first correction determines the symmetric mass ratio -/
lemma pn_anti : StrictAntiOn (fun η : ℝ => (743 / 252 + 11 / 3 * η) * η ^ (-((2 : ℝ) / 5))) (Ioc 0 (1 / 4)) := by
  have hd : ∀ η : ℝ, 0 < η → HasDerivAt (fun η : ℝ => (743 / 252 + 11 / 3 * η) * η ^ (-((2 : ℝ) / 5)))
      (11 / 3 * η ^ (-((2 : ℝ) / 5)) + (743 / 252 + 11 / 3 * η) * (-((2 : ℝ) / 5) * η ^ (-((2 : ℝ) / 5) - 1))) η := fun η h => by
    have d1 : HasDerivAt (fun η : ℝ => 743 / 252 + 11 / 3 * η) (11 / 3) η := by
      simpa using ((hasDerivAt_id η).const_mul (11 / 3 : ℝ)).const_add (743 / 252)
    exact d1.mul (Real.hasDerivAt_rpow_const (Or.inl h.ne'))
  refine strictAntiOn_of_deriv_neg (convex_Ioc _ _) (fun η h => (hd η h.1).continuousAt.continuousWithinAt) fun η h => ?_
  rw [interior_Ioc] at h
  rw [(hd η h.1).deriv]
  have e : η ^ (-((2 : ℝ) / 5)) = η * η ^ (-((2 : ℝ) / 5) - 1) := by
    nth_rewrite 2 [← Real.rpow_one η]
    rw [← Real.rpow_add h.1]
    congr 1
    ring
  have p : 0 < η ^ (-((2 : ℝ) / 5) - 1) := Real.rpow_pos_of_pos h.1 _
  rw [e]
  have h2 := h.2
  have : (11 / 5 * η - 743 / 630) * η ^ (-((2 : ℝ) / 5) - 1) < 0 := mul_neg_of_neg_of_pos (by linarith) p
  calc _ = (11 / 5 * η - 743 / 630) * η ^ (-((2 : ℝ) / 5) - 1) := by ring
    _ < 0 := this

/-- a spectrum has one chirp mass and one symmetric mass ratio -/
lemma ChirpsPN.unique {h : ℝ → ℂ} {c c' η η' : ℝ} (hc : 0 < c) (hc' : 0 < c') (hη : 0 < η) (h4 : η ≤ 1 / 4) (hη' : 0 < η') (h4' : η' ≤ 1 / 4)
    (a : ChirpsPN h c η) (b : ChirpsPN h c' η') : c = c' ∧ η = η' := by
  have e := a.chirps.unique hc hc' b.chirps
  subst e
  refine ⟨rfl, ?_⟩
  obtain ⟨T, t1, t2⟩ := a
  obtain ⟨S, s1, s2⟩ := b
  have e : ∀ᶠ f in 𝓝[>] (0 : ℝ), T f = S f := by
    filter_upwards [t1, s1] with f x y
    obtain ⟨d, hd, -, ed⟩ := x
    obtain ⟨d', hd', -, ed'⟩ := y
    rw [hd.unique hd'] at ed
    rw [ed, ed']
  have l := tendsto_nhds_unique t2 (s2.congr' (by filter_upwards [e] with f hf; rw [hf]))
  have r : ∀ y : ℝ, 0 < y → (c / y ^ ((3 : ℝ) / 5)) ^ ((2 : ℝ) / 3) = c ^ ((2 : ℝ) / 3) * y ^ (-((2 : ℝ) / 5)) := fun y hy => by
    rw [Real.div_rpow hc.le (by positivity), ← Real.rpow_mul hy.le, div_eq_mul_inv, ← Real.rpow_neg hy.le]
    norm_num
  rw [r _ hη, r _ hη'] at l
  have pc : 0 < c ^ ((2 : ℝ) / 3) := by positivity
  refine pn_anti.injOn ⟨hη, h4⟩ ⟨hη', h4'⟩ (mul_left_cancel₀ pc.ne' ?_)
  linarith

/-- ... and one spin-orbit parameter -/
lemma ChirpsSO.unique {h : ℝ → ℂ} {c c' η η' β β' : ℝ} (hc : 0 < c) (hc' : 0 < c') (hη : 0 < η) (h4 : η ≤ 1 / 4) (hη' : 0 < η')
    (h4' : η' ≤ 1 / 4) (a : ChirpsSO h c η β) (b : ChirpsSO h c' η' β') : c = c' ∧ η = η' ∧ β = β' := by
  obtain ⟨e1, e2⟩ := a.pn.unique hc hc' hη h4 hη' h4' b.pn
  subst e1 e2
  refine ⟨rfl, rfl, ?_⟩
  obtain ⟨T, t1, t2⟩ := a
  obtain ⟨S, s1, s2⟩ := b
  have e : ∀ᶠ f in 𝓝[>] (0 : ℝ), T f = S f := by
    filter_upwards [t1, s1] with f x y
    obtain ⟨d, hd, -, ed⟩ := x
    obtain ⟨d', hd', -, ed'⟩ := y
    rw [hd.unique hd'] at ed
    rw [ed, ed']
  have l := tendsto_nhds_unique t2 (s2.congr' (by filter_upwards [e] with f hf; rw [hf]))
  have p : 0 < c / η ^ ((3 : ℝ) / 5) := by positivity
  have := mul_right_cancel₀ p.ne' (neg_injective l)
  linarith

/-- moduli of two spectra that are shifts of each other, over the Newtonian modulus -/
lemma newton_fix {h h' : ℝ → ℂ} {φ t k k' Mc D D' : ℝ} (hMc : 0 < Mc) (hD : 0 < D) (hD' : 0 < D')
    (a : Tendsto (fun f => ‖h f‖ / Spec.newtonianAmp Mc D f) (𝓝[>] 0) (𝓝 k))
    (a' : Tendsto (fun f => ‖h' f‖ / Spec.newtonianAmp Mc D' f) (𝓝[>] 0) (𝓝 k')) (s : ShiftedLow φ t h h') : k / D = k' / D' := by
  have l : Tendsto (fun f => ‖h' f‖ / Spec.newtonianAmp Mc D' f) (𝓝[>] 0) (𝓝 (k * (D' / D))) := by
    refine (a.mul_const (D' / D)).congr' ?_
    filter_upwards [s, self_mem_nhdsWithin] with f hf h0
    have hp := newton_pos Mc D hMc hD h0
    have hp' := newton_pos Mc D' hMc hD' h0
    have r : Spec.newtonianAmp Mc D f * D = Spec.newtonianAmp Mc D' f * D' := by
      unfold Spec.newtonianAmp
      have := m_per_Mpc_pos
      field_simp
    rw [hf, norm_mul, mul_comm Complex.I, Complex.norm_exp_ofReal_mul_I, one_mul]
    rw [div_mul_div_comm, div_eq_div_iff (by positivity) (by positivity), r]
    ring
  have := tendsto_nhds_unique a' l
  rw [this]
  field_simp

lemma newton_top {Mc D : ℝ} (hMc : 0 < Mc) (hD : 0 < D) : Tendsto (Spec.newtonianAmp Mc D) (𝓝[>] 0) atTop := by
  have hg := gt_pos
  have hpi := Real.pi_pos
  have hr := MRSUN_pos
  have hm := m_per_Mpc_pos
  have h0 : Tendsto (fun f : ℝ => Mc * gt * f) (𝓝[>] 0) (𝓝[>] 0) := by
    refine tendsto_nhdsWithin_iff.2 ⟨?_, ?_⟩
    · have : Tendsto (fun f : ℝ => Mc * gt * f) (𝓝 0) (𝓝 (Mc * gt * 0)) := (continuous_const_mul (Mc * gt)).tendsto 0
      rw [mul_zero] at this
      exact this.mono_left nhdsWithin_le_nhds
    · filter_upwards [self_mem_nhdsWithin] with f hf
      exact mul_pos (mul_pos hMc hg) hf
  have h1 := (tendsto_rpow_neg_nhdsGT_zero (show (-(7 / 6) : ℝ) < 0 by norm_num)).comp h0
  have h2 := h1.const_mul_atTop (show 0 < Real.sqrt (5 / 24) * Real.pi ^ (-(2 / 3) : ℝ) * (Mc * MRSUN) * (Mc * gt) / (D * m_per_Mpc) by
    positivity)
  refine h2.congr fun f => ?_
  simp only [Spec.newtonianAmp, Function.comp]
  ring

/-! ### the generators -/

/-- a binary with spins along the orbital angular momentum, as the generators take it: detector-frame chirp mass (solar masses),
    symmetric mass ratio, spins, distance (Mpc), coalescence time, phase, reference frequency -/
structure Source where
  (Mc eta chi1 chi2 D tc phic f_ref : ℝ)

structure Source.Ok (x : Source) : Prop where
  Mc : 0 < x.Mc
  eta : 0 < x.eta
  eta' : x.eta ≤ 1 / 4
  chi1 : |x.chi1| ≤ 1
  chi2 : |x.chi2| ≤ 1
  D : 0 < x.D

/-- the four generators for such binaries, with the tidal parameters and options of those that take them -/
inductive Approximant where
  | taylorF2 (l1 l2 : ℝ) (useLambdaTildes : Bool)
  | phenomD
  | nrTidalv2 (l1 l2 : ℝ) (noTaper : Bool)
  | xas

/-- the generated strain at one frequency -/
noncomputable def Approximant.strain (q : QNM) (x : Source) (f : ℝ) : Approximant → ℂ
  | .taylorF2 l1 l2 b => (TaylorF2.gen_TaylorF2 [f] [x.Mc, x.eta, x.chi1, x.chi2, l1, l2, x.D, x.tc, x.phic] x.f_ref b).getD 0 0
  | .phenomD => (PhenomD.gen_IMRPhenomD q [f] [x.Mc, x.eta, x.chi1, x.chi2, x.D, x.tc, x.phic] x.f_ref).getD 0 0
  | .nrTidalv2 l1 l2 n =>
    (NRTidalv2.gen_IMRPhenomD_NRTidalv2 q [f] [x.Mc, x.eta, x.chi1, x.chi2, l1, l2, x.D, x.tc, x.phic] x.f_ref false n).getD 0 0
  | .xas => (XAS.gen_IMRPhenomXAS [f] [x.Mc, x.eta, x.chi1, x.chi2, x.D, x.tc, x.phic] x.f_ref).getD 0 0

/-- the spin-orbit parameter of the binary -/
noncomputable def Source.beta (x : Source) : ℝ := spinOrbit (Mc_eta_to_ms x.Mc x.eta).1 (Mc_eta_to_ms x.Mc x.eta).2 x.chi1 x.chi2

/-- NRTidalv2 is for stars with non-negative deformability -/
def Approximant.Ok : Approximant → Prop
  | .nrTidalv2 l1 l2 _ => 0 ≤ l1 ∧ 0 ≤ l2
  | _ => True

/-- TaylorF2 converts masses to lengths with `MRSUN`, the others with `C * gt` -/
noncomputable def Approximant.unit : Approximant → ℝ
  | .taylorF2 .. => MRSUN
  | _ => C * gt

lemma rel_of_one {r N : ℝ → ℝ} {k : ℝ} (hk : 0 < k) (h : Tendsto (fun f => r f / (k * N f)) (𝓝[>] 0) (𝓝 1)) :
    Tendsto (fun f => r f / N f) (𝓝[>] 0) (𝓝 k) := by
  have := h.const_mul k
  rw [mul_one] at this
  refine this.congr fun f => ?_
  rcases eq_or_ne (N f) 0 with h0 | h0
  · simp [h0]
  · field_simp

lemma chirps_sample {h : ℝ → ℂ} {s : ℝ → ℂ} {c η β : ℝ} (hc : 0 < c) (a : Chirps h c ∧ ChirpsPN h c η ∧ ChirpsSO h c η β)
    (e : ∀ᶠ f in 𝓝[>] (0 : ℝ), s f = h f) : ChirpsSO s c η β :=
  a.2.2.shift (φ := 0) (t := 0) hc (by filter_upwards [e] with f hf; rw [hf]; simp)

section
variable {q : QNM} {x : Source}

lemma cut_pos (hq : q.Shipped) (hx : x.Ok) : 0 < fCut (thetaOf x.Mc x.eta x.chi1 x.chi2) := by
  have hp := thetaOf_physical (chi1 := x.chi1) (chi2 := x.chi2) hx.Mc hx.eta hx.eta' hx.chi1 hx.chi2
  obtain ⟨a, b, e4R, eRc, -⟩ := C74_amplitude_regions_ordered q hq _ hp
  exact (a.trans b).trans_le (e4R.trans eRc.le)

lemma unit_ratio_pos : 0 < C * gt / MRSUN := div_pos (mul_pos C_pos gt_pos) MRSUN_pos

lemma amp_D (hq : q.Shipped) (hx : x.Ok) :
    Tendsto (fun f => ‖Approximant.phenomD.strain q x f‖ / Spec.newtonianAmp x.Mc x.D f) (𝓝[>] 0) (𝓝 (C * gt / MRSUN)) := by
  have hp := thetaOf_physical (chi1 := x.chi1) (chi2 := x.chi2) hx.Mc hx.eta hx.eta' hx.chi1 hx.chi2
  have hM := mul_pos (add_pos hp.m1_pos hp.m2_pos) gt_pos
  exact rel_of_one unit_ratio_pos (series_one hM
    (relAmpD_series x.Mc x.eta x.chi1 x.chi2 x.D x.tc x.phic x.f_ref q hq hx.Mc hx.eta hx.eta' hx.chi1 hx.chi2 hx.D))

lemma amp_X (hx : x.Ok) :
    Tendsto (fun f => ‖Approximant.xas.strain q x f‖ / Spec.newtonianAmp x.Mc x.D f) (𝓝[>] 0) (𝓝 (C * gt / MRSUN)) := by
  have hp := thetaOf_physical (chi1 := x.chi1) (chi2 := x.chi2) hx.Mc hx.eta hx.eta' hx.chi1 hx.chi2
  have hM := mul_pos (add_pos hp.m1_pos hp.m2_pos) gt_pos
  exact rel_of_one unit_ratio_pos (series_one hM
    (relAmpX_series x.Mc x.eta x.chi1 x.chi2 x.D x.tc x.phic x.f_ref hx.Mc hx.eta hx.eta' hx.chi1 hx.chi2 hx.D))

lemma amp_F2 (hx : x.Ok) (l1 l2 : ℝ) (b : Bool) :
    Tendsto (fun f => ‖(Approximant.taylorF2 l1 l2 b).strain q x f‖ / Spec.newtonianAmp x.Mc x.D f) (𝓝[>] 0) (𝓝 1) := by
  refine tendsto_const_nhds.congr' ?_
  filter_upwards [self_mem_nhdsWithin] with f hf
  have hf : 0 < f := hf
  unfold Approximant.strain
  simp only
  rw [C37_amplitude x.Mc x.eta x.chi1 x.chi2 l1 l2 x.D x.tc x.phic x.f_ref b [f] hx.Mc hx.eta hx.eta' hx.D 0 (by simp) (by simpa using hf)]
  simp only [List.getD_cons_zero]
  rw [div_self (newton_pos x.Mc x.D hx.Mc hx.D hf).ne']

open PhenomD NRTidalv2 in
/-- the tidal amplitude vanishes at low frequency -/
lemma tidal_low (t : ThetaT) (h1 : 0 < t.m1) (h2 : 0 < t.m2) (D : ℝ) :
    Tendsto (fun f => get_tidal_amplitude (xAt t f) t (Tidal.get_kappa t) D) (𝓝[>] 0) (𝓝 0) := by
  have hM : 0 < (t.m1 + t.m2) * gt := mul_pos (add_pos h1 h2) gt_pos
  have c0 := (C78_amplitude_continuous t (Tidal.get_kappa t) D) 0 (by simp)
  have z : get_tidal_amplitude 0 t (Tidal.get_kappa t) D = 0 := by
    unfold get_tidal_amplitude
    simp only
    rw [Real.zero_rpow (by norm_num : (13 : ℝ) / 4 ≠ 0)]
    ring
  have l := c0.tendsto
  rw [z] at l
  refine l.comp (tendsto_nhdsWithin_iff.2 ⟨?_, ?_⟩)
  · have := ((vLow_tendsto hM).mono_right nhdsWithin_le_nhds).pow 2
    rw [zero_pow (by norm_num)] at this
    refine this.congr' ?_
    filter_upwards [self_mem_nhdsWithin] with f hf
    exact (xAt_low h1 h2 hf).symm
  · filter_upwards [self_mem_nhdsWithin] with f hf
    rw [xAt_low h1 h2 hf]
    exact sq_nonneg (vLow ((t.m1 + t.m2) * gt) f)

open PhenomD NRTidalv2 in
lemma amp_NR (hq : q.Shipped) (hx : x.Ok) {l1 l2 : ℝ} (hl1 : 0 ≤ l1) (hl2 : 0 ≤ l2) (n : Bool) :
    Tendsto (fun f => ‖(Approximant.nrTidalv2 l1 l2 n).strain q x f‖ / Spec.newtonianAmp x.Mc x.D f) (𝓝[>] 0) (𝓝 (C * gt / MRSUN)) := by
  set t := thetaTOf x.Mc x.eta x.chi1 x.chi2 l1 l2 false with ht
  set th := thetaOf x.Mc x.eta x.chi1 x.chi2 with hth
  have hb : bbh t = th := rfl
  have hp : th.Physical := thetaOf_physical (chi1 := x.chi1) (chi2 := x.chi2) hx.Mc hx.eta hx.eta' hx.chi1 hx.chi2
  have p1 : 0 < t.m1 := hp.m1_pos
  have p2 : 0 < t.m2 := hp.m2_pos
  have hk : 0 ≤ Tidal.get_kappa t := by
    rw [C43_kappa t p1 p2]
    have e1 : t.lambda1 = l1 := rfl
    have e2 : t.lambda2 = l2 := rfl
    rw [e1, e2]
    unfold Spec.lambdaTilde
    positivity
  have hfm := C48_positive t p1 p2 hk
  have hT := tidal_low t p1 p2 x.D
  have small : Tendsto (fun f => |get_tidal_amplitude (xAt t f) t (Tidal.get_kappa t) x.D| / Spec.newtonianAmp x.Mc x.D f) (𝓝[>] 0) (𝓝 0) :=
    hT.abs.div_atTop (newton_top hx.Mc hx.D)
  have base := amp_D hq hx
  have key : ∀ᶠ f in 𝓝[>] (0 : ℝ), |‖(Approximant.nrTidalv2 l1 l2 n).strain q x f‖ / Spec.newtonianAmp x.Mc x.D f -
      ‖Approximant.phenomD.strain q x f‖ / Spec.newtonianAmp x.Mc x.D f| ≤
      |get_tidal_amplitude (xAt t f) t (Tidal.get_kappa t) x.D| / Spec.newtonianAmp x.Mc x.D f := by
    filter_upwards [Ioo_mem_nhdsGT (cut_pos hq hx), Ioo_mem_nhdsGT hfm] with f hc hm
    have hN := newton_pos x.Mc x.D hx.Mc hx.D hc.1
    have eD : ‖Approximant.phenomD.strain q x f‖ = |ampAt th (get_coeffs th) (tfOf q th) x.D (fCut th) f| := by
      unfold Approximant.strain
      simp only
      rw [genD_eq, List.map_cons, List.map_nil, cutThr_uncut (by simp) (by simpa using hc.2), List.getD_cons_zero, strainAt_below hc.2,
        norm_mul, mul_comm Complex.I, Complex.norm_exp_ofReal_mul_I, mul_one, Complex.norm_real]
      rfl
    have eN : ‖(Approximant.nrTidalv2 l1 l2 n).strain q x f‖ = |ampAt th (get_coeffs th) (tfOf q th) x.D (fCut th) f
        + get_tidal_amplitude (xAt t f) t (Tidal.get_kappa t) x.D| := by
      have e : taperAt t n f = 1 := by
        unfold taperAt
        split_ifs
        · rfl
        · unfold get_planck_taper
          rw [if_pos hm.2]
          rfl
      unfold Approximant.strain
      simp only
      rw [genNR_eq, List.map_cons, List.map_nil, cutThr_uncut (by simp) (by simpa using hc.2), List.getD_cons_zero,
        nrStrain_below (q := q) (D := x.D) (tc := x.tc) (phic := x.phic) (f_ref := x.f_ref) (nt := n) hc.2, e, one_mul, norm_mul, mul_comm Complex.I, Complex.norm_exp_ofReal_mul_I, mul_one, Complex.norm_real]
      rfl
    rw [← sub_div, abs_div, abs_of_pos hN, eD, eN]
    refine div_le_div_of_nonneg_right ((abs_abs_sub_abs_le _ _).trans ?_) hN.le
    rw [add_sub_cancel_left]
  have d : Tendsto (fun f => ‖(Approximant.nrTidalv2 l1 l2 n).strain q x f‖ / Spec.newtonianAmp x.Mc x.D f -
      ‖Approximant.phenomD.strain q x f‖ / Spec.newtonianAmp x.Mc x.D f) (𝓝[>] 0) (𝓝 0) :=
    squeeze_zero_norm' (by simpa only [Real.norm_eq_abs] using key) small
  have := d.add base
  rw [zero_add] at this
  exact this.congr fun f => by ring

/-! ### C122 -/

/-- The modulus of the strain tends to the Newtonian one of the given chirp mass and distance, and the strain chirps at the rate of
    that chirp mass, with the corrections of the given symmetric mass ratio and spin-orbit parameter. -/
theorem C122_newtonian (hq : q.Shipped) (hx : x.Ok) (a : Approximant) (ha : a.Ok) :
    ChirpsSO (fun f => a.strain q x f) (x.Mc * gt) x.eta x.beta ∧
      Tendsto (fun f => ‖a.strain q x f‖ / Spec.newtonianAmp x.Mc x.D f) (𝓝[>] 0) (𝓝 (a.unit / MRSUN)) := by
  have hc : 0 < x.Mc * gt := mul_pos hx.Mc gt_pos
  cases a with
  | taylorF2 l1 l2 b =>
    obtain ⟨h, e, c⟩ := C121_TaylorF2 x.Mc x.eta x.chi1 x.chi2 x.D x.tc x.phic x.f_ref hx.Mc hx.eta hx.eta' hx.D l1 l2 b
    refine ⟨chirps_sample hc c (Eventually.of_forall fun f => by simp only [Approximant.strain]; rw [e]; rfl), ?_⟩
    simp only [Approximant.unit]
    rw [div_self MRSUN_pos.ne']
    exact amp_F2 hx l1 l2 b
  | phenomD =>
    obtain ⟨h, e, c⟩ := C121_phenomD x.Mc x.eta x.chi1 x.chi2 x.D x.tc x.phic x.f_ref hq hx.Mc hx.eta hx.eta' hx.chi1 hx.chi2 hx.D
    refine ⟨chirps_sample hc c ?_, amp_D hq hx⟩
    filter_upwards [Ioo_mem_nhdsGT (cut_pos hq hx)] with f hf
    simp only [Approximant.strain]
    rw [e [f] (by simp) (by simpa using hf.2)]
    rfl
  | nrTidalv2 l1 l2 n =>
    obtain ⟨h, e, c⟩ := C121_NRTidalv2 x.Mc x.eta x.chi1 x.chi2 x.D x.tc x.phic x.f_ref hq hx.Mc hx.eta hx.eta' hx.chi1 hx.chi2 hx.D
      l1 l2 ha.1 ha.2 n
    refine ⟨chirps_sample hc c ?_, amp_NR hq hx ha.1 ha.2 n⟩
    filter_upwards [Ioo_mem_nhdsGT (cut_pos hq hx)] with f hf
    simp only [Approximant.strain]
    rw [e [f] (by simp) (by simpa using hf.2)]
    rfl
  | xas =>
    obtain ⟨h, e, c⟩ := C121_XAS x.Mc x.eta x.chi1 x.chi2 x.D x.tc x.phic x.f_ref hx.Mc hx.eta hx.eta' hx.chi1 hx.chi2 hx.D
    exact ⟨chirps_sample hc c (Eventually.of_forall fun f => by simp only [Approximant.strain]; rw [e]; rfl), amp_X hx⟩

/-- If the strains of two binaries, by any two of the generators, agree at all low frequencies up to a time shift and a phase, then the
    chirp masses, symmetric mass ratios and spin-orbit parameters are the same, and the distances are in the ratio of the units. -/
theorem C122_low_frequencies (hq : q.Shipped) {y : Source} (hx : x.Ok) (hy : y.Ok) {a b : Approximant} (ha : a.Ok) (hb : b.Ok) {φ t : ℝ}
    (s : ShiftedLow φ t (fun f => a.strain q x f) (fun f => b.strain q y f)) : x.Mc = y.Mc ∧ x.eta = y.eta ∧ x.beta = y.beta ∧ a.unit / x.D = b.unit / y.D := by
  obtain ⟨c1, m1⟩ := C122_newtonian hq hx a ha
  obtain ⟨c2, m2⟩ := C122_newtonian hq hy b hb
  have hg := gt_pos
  obtain ⟨e', eη, eβ⟩ := (c1.shift (mul_pos hx.Mc hg) s).unique (mul_pos hx.Mc hg) (mul_pos hy.Mc hg) hx.eta hx.eta' hy.eta hy.eta' c2
  have e : x.Mc = y.Mc := mul_right_cancel₀ hg.ne' e'
  refine ⟨e, eη, eβ, ?_⟩
  rw [← e] at m2
  have := newton_fix hx.Mc hx.D hy.D m1 m2 s
  have hr := MRSUN_pos
  rw [div_right_comm, div_right_comm b.unit] at this
  exact (div_left_inj' hr.ne').1 this

/-- Within one generator, and between any two of IMRPhenomD, IMRPhenomD_NRTidalv2 and IMRPhenomXAS, the two masses, the spin-orbit
    parameter and the distance are fixed: whatever the other parameters, different masses or distances give different strains. -/
theorem C122_distance (hq : q.Shipped) {y : Source} (hx : x.Ok) (hy : y.Ok) {a b : Approximant} (ha : a.Ok) (hb : b.Ok)
    (hab : (∃ l1 l2 c, a = .taylorF2 l1 l2 c) ↔ ∃ l1 l2 c, b = .taylorF2 l1 l2 c) {φ t : ℝ}
    (s : ShiftedLow φ t (fun f => a.strain q x f) (fun f => b.strain q y f)) : x.Mc = y.Mc ∧ x.eta = y.eta ∧ x.beta = y.beta ∧ x.D = y.D := by
  obtain ⟨e, eη, eβ, d⟩ := C122_low_frequencies hq hx hy ha hb s
  refine ⟨e, eη, eβ, ?_⟩
  have hu : a.unit = b.unit := by
    cases a <;> cases b <;> simp_all [Approximant.unit]
  have hpos : 0 < b.unit := by
    cases b <;> simp only [Approximant.unit] <;> first | exact MRSUN_pos | exact mul_pos C_pos gt_pos
  rw [hu] at d
  have hD := hx.D
  have hD' := hy.D
  field_simp at d
  exact d.symm

/-- Low frequencies tell binaries apart that differ in one spin only, or have equal spins on both bodies. -/
theorem C122_spins (hq : q.Shipped) {y : Source} (hx : x.Ok) (hy : y.Ok) {a b : Approximant} (ha : a.Ok) (hb : b.Ok) {φ t : ℝ}
    (s : ShiftedLow φ t (fun f => a.strain q x f) (fun f => b.strain q y f)) :
    (x.chi2 = y.chi2 → x.chi1 = y.chi1) ∧ (x.chi1 = y.chi1 → x.chi2 = y.chi2) ∧
      (x.chi1 = x.chi2 → y.chi1 = y.chi2 → x.chi1 = y.chi1) := by
  obtain ⟨e, eη, eβ, -⟩ := C122_low_frequencies hq hx hy ha hb s
  obtain ⟨p2, p12, -⟩ := C02_masses_ordered x.Mc x.eta hx.Mc hx.eta hx.eta'
  have p1 := lt_of_lt_of_le p2 p12
  unfold Source.beta spinOrbit at eβ
  rw [← e, ← eη] at eβ
  set m1 := (Mc_eta_to_ms x.Mc x.eta).1
  set m2 := (Mc_eta_to_ms x.Mc x.eta).2
  have k1 : 0 < 113 / 12 * (m1 / (m1 + m2)) ^ 2 + 25 / 4 * (m1 * m2 / (m1 + m2) ^ 2) := by positivity
  have k2 : 0 < 113 / 12 * (m2 / (m1 + m2)) ^ 2 + 25 / 4 * (m1 * m2 / (m1 + m2) ^ 2) := by positivity
  refine ⟨fun h => ?_, fun h => ?_, fun h h' => ?_⟩
  · rw [h] at eβ
    exact mul_left_cancel₀ k1.ne' (add_right_cancel eβ)
  · rw [h] at eβ
    exact mul_left_cancel₀ k2.ne' (add_left_cancel eβ)
  · rw [← h, ← h', ← add_mul, ← add_mul] at eβ
    exact mul_left_cancel₀ (add_pos k1 k2).ne' eβ

/-- Between TaylorF2 and the other generators the distance is off by a relative 1e-8 to 2e-8, from two values of the solar mass as a
    length. -/
theorem C122_distance_TaylorF2 (hq : q.Shipped) {y : Source} (hx : x.Ok) (hy : y.Ok) {b : Approximant} (hb : b.Ok)
    (hb' : ¬ ∃ l1 l2 c, b = .taylorF2 l1 l2 c) {l1 l2 : ℝ} {c : Bool} {φ t : ℝ}
    (s : ShiftedLow φ t (fun f => (Approximant.taylorF2 l1 l2 c).strain q x f) (fun f => b.strain q y f)) :
    x.Mc = y.Mc ∧ x.eta = y.eta ∧ x.beta = y.beta ∧ 1e-8 < y.D / x.D - 1 ∧ y.D / x.D - 1 < 2e-8 := by
  obtain ⟨e, eη, eβ, d⟩ := C122_low_frequencies hq hx hy (a := .taylorF2 l1 l2 c) trivial hb s
  have hu : b.unit = C * gt := by cases b <;> simp_all [Approximant.unit]
  have hr := MRSUN_pos
  have hD := hx.D
  have hD' := hy.D
  rw [hu] at d
  have q1 : y.D / x.D = C * gt / MRSUN := by
    simp only [Approximant.unit] at d
    field_simp at d ⊢
    linarith
  rw [q1]
  exact ⟨e, eη, eβ, C41_constants⟩

end

/-- the hypotheses are met -/
example : (qnmTable 1e-7).Shipped ∧ (⟨30, 0.24, 0.3, -0.2, 400, 0, 0, 20⟩ : Source).Ok ∧ (Approximant.nrTidalv2 400 300 true).Ok :=
  ⟨C93_shipped (by norm_num) (by norm_num), ⟨by norm_num, by norm_num, by norm_num, by norm_num [abs_le], by norm_num [abs_le], by norm_num⟩,
    by norm_num [Approximant.Ok]⟩

/-- two different parameter sets whose strains agree up to a time shift and a phase -/
example (q : QNM) : ShiftedLow (-1) (-3) (fun f => Approximant.xas.strain q ⟨30, 0.24, 0.3, -0.2, 400, 0, 0, 20⟩ f)
    (fun f => Approximant.xas.strain q ⟨30, 0.24, 0.3, -0.2, 400, 0 + 3, 0 + 1, 20⟩ f) := by
  refine Eventually.of_forall fun f => ?_
  simp only [Approximant.strain]
  rw [C66_time_phase 30 0.24 0.3 (-0.2) 400 0 0 20 [f] 3 1 0 (by simp), mul_assoc, ← Complex.exp_add, mul_comm]
  congr 2
  simp only [List.getD_cons_zero]
  push_cast
  ring

end Ripple

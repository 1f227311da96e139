/-
  Properties C35, C46, C49, C50, C76, C77 (NRTidalv2 part): the NRTidalv2 strain generator.
  Throughout params = [Mc, eta, chi1, chi2, l1, l2, D, tc, phic].
-/
import Verif.Props.NRTidalFits
import Verif.Props.Taper
import Verif.Props.TaylorF2
import Verif.Props.F2vsD

namespace Ripple
open NRTidalv2 Tidal PhenomD Filter Topology

lemma genNR_eq' (q : QNM) (grid : List ℝ) (Mc eta chi1 chi2 l1 l2 D tc phic : ℝ) (rest ext : List ℝ)
    (hD : Jnp.index ext 0 = D) (ht : Jnp.index ext 1 = tc) (hp : Jnp.index ext 2 = phic)
    (he : rest = ext) (f_ref : ℝ) (b nt : Bool) :
    gen_IMRPhenomD_NRTidalv2 q grid (Mc :: eta :: chi1 :: chi2 :: l1 :: l2 :: rest) f_ref b nt =
      grid.map (nrStrain q (thetaTOf Mc eta chi1 chi2 l1 l2 b) D tc phic f_ref nt
        (cutThr grid (fCut (thetaOf Mc eta chi1 chi2)))) := by
  subst he
  set p := Mc :: eta :: chi1 :: chi2 :: l1 :: l2 :: rest with hp'
  have i0 : Jnp.index p 0 = Mc := Jnp.index_nat (i := 0) (by simp [hp'])
  have i1 : Jnp.index p 1 = eta := Jnp.index_nat (i := 1) (by simp [hp'])
  have i2 : Jnp.index p 2 = chi1 := Jnp.index_nat (i := 2) (by simp [hp'])
  have i3 : Jnp.index p 3 = chi2 := Jnp.index_nat (i := 3) (by simp [hp'])
  have i4 : Jnp.index p 4 = l1 := Jnp.index_nat (i := 4) (by simp [hp'])
  have i5 : Jnp.index p 5 = l2 := Jnp.index_nat (i := 5) (by simp [hp'])
  have i6 : p.drop 6 = rest := by simp [hp']
  have key := gen_eq q grid (thetaTOf Mc eta chi1 chi2 l1 l2 b) D tc phic f_ref nt
  rw [show fCut (thetaOf Mc eta chi1 chi2) = fM_CUT / Ms (bbh (thetaTOf Mc eta chi1 chi2 l1 l2 b)) from
    fCut_eq (thetaOf Mc eta chi1 chi2), ← key]
  unfold gen_IMRPhenomD_NRTidalv2
  simp only [i0, i1, i2, i3, i4, i5, i6, hD, ht, hp]
  have hM : ((Mc_eta_to_ms Mc eta).1 + (Mc_eta_to_ms Mc eta).2) * gt = Ms (bbh (thetaTOf Mc eta chi1 chi2 l1 l2 b)) :=
    Ms_eq (thetaOf Mc eta chi1 chi2)
  simp only [cutThr, psiAt, hM]
  rfl

lemma genNR_eq (q : QNM) (grid : List ℝ) (Mc eta chi1 chi2 l1 l2 D tc phic : ℝ) (rest : List ℝ)
    (f_ref : ℝ) (b nt : Bool) :
    gen_IMRPhenomD_NRTidalv2 q grid (Mc :: eta :: chi1 :: chi2 :: l1 :: l2 :: D :: tc :: phic :: rest) f_ref b nt =
      grid.map (nrStrain q (thetaTOf Mc eta chi1 chi2 l1 l2 b) D tc phic f_ref nt
        (cutThr grid (fCut (thetaOf Mc eta chi1 chi2)))) :=
  genNR_eq' q grid Mc eta chi1 chi2 l1 l2 D tc phic _ _ (Jnp.index_nat (i := 0) (by simp))
    (Jnp.index_nat (i := 1) (by simp)) (Jnp.index_nat (i := 2) (by simp)) rfl f_ref b nt

lemma bbh_thetaTOf (Mc eta chi1 chi2 l1 l2 : ℝ) (b : Bool) :
    bbh (thetaTOf Mc eta chi1 chi2 l1 l2 b) = thetaOf Mc eta chi1 chi2 := rfl

section
variable (q : QNM) (Mc eta chi1 chi2 l1 l2 D tc phic f_ref : ℝ) (b nt : Bool)

/-! ### C35, C77 polarisations -/

theorem C35_NRTidalv2 (grid : List ℝ) (iota : ℝ) :
    let h := gen_IMRPhenomD_NRTidalv2 q grid [Mc, eta, chi1, chi2, l1, l2, D, tc, phic] f_ref b nt
    gen_IMRPhenomD_NRTidalv2_hphc q grid [Mc, eta, chi1, chi2, l1, l2, D, tc, phic, iota] f_ref b nt =
      (h.map fun z => (((1 + Real.cos iota ^ 2) / 2 : ℝ) : ℂ) * z,
       h.map fun z => -(Complex.I * z * (Real.cos iota : ℂ))) := by
  have i7 : Jnp.index [Mc, eta, chi1, chi2, l1, l2, D, tc, phic, iota] (-1) = iota := by
    rw [Jnp.index_last (by simp)]; simp
  intro h
  unfold gen_IMRPhenomD_NRTidalv2_hphc
  simp only [i7, List.dropLast_cons_cons, List.dropLast_singleton]
  congr 1
  · refine List.map_congr_left fun z _ => ?_
    push_cast; ring
  · refine List.map_congr_left fun z _ => ?_
    ring

/-- With the nine-element vector (no inclination) the last entry is stripped: phic becomes the inclination and tc takes
    the place of the coalescence phase. -/
theorem C77_NRTidalv2 (grid : List ℝ) :
    gen_IMRPhenomD_NRTidalv2_hphc q grid [Mc, eta, chi1, chi2, l1, l2, D, tc, phic] f_ref b nt =
      gen_IMRPhenomD_NRTidalv2_hphc q grid [Mc, eta, chi1, chi2, l1, l2, D, tc, tc, phic] f_ref b nt := by
  have i7 : Jnp.index [Mc, eta, chi1, chi2, l1, l2, D, tc, phic] (-1) = phic := by
    rw [Jnp.index_last (by simp)]; simp
  have i7' : Jnp.index [Mc, eta, chi1, chi2, l1, l2, D, tc, tc, phic] (-1) = phic := by
    rw [Jnp.index_last (by simp)]; simp
  unfold gen_IMRPhenomD_NRTidalv2_hphc
  simp only [i7, i7', List.dropLast_cons_cons, List.dropLast_singleton]
  rw [genNR_eq, genNR_eq' q grid Mc eta chi1 chi2 l1 l2 D tc tc [D, tc] [D, tc] (Jnp.index_nat (i := 0) (by simp))
    (Jnp.index_nat (i := 1) (by simp)) (by simp [Jnp.index]) rfl]

/-! ### C49 tidal coordinates -/

theorem C49_NRTidalv2 (grid : List ℝ) (hMc : 0 < Mc) (he : 0 < eta) (he' : eta ≤ 1 / 4) (hs : eta ≠ Spec.etaSingular) :
    let m := Mc_eta_to_ms Mc eta
    let lt := lambdas_to_lambda_tildes l1 l2 m.1 m.2
    gen_IMRPhenomD_NRTidalv2 q grid [Mc, eta, chi1, chi2, lt.1, lt.2, D, tc, phic] f_ref true nt =
      gen_IMRPhenomD_NRTidalv2 q grid [Mc, eta, chi1, chi2, l1, l2, D, tc, phic] f_ref false nt := by
  intro m lt
  rw [genNR_eq, genNR_eq, thetaTOf_tildes Mc eta chi1 chi2 l1 l2 hMc he he' hs]

/-! ### C50 covariance -/

lemma tidal_amp_distance (t : ThetaT) (x κ k : ℝ) :
    get_tidal_amplitude x t κ (k * D) = get_tidal_amplitude x t κ D / k := by
  unfold get_tidal_amplitude get_amp0_lal
  simp only
  rw [show k * D * m_per_Mpc = D * m_per_Mpc * k by ring, div_mul_eq_div_div]
  ring

theorem C50_distance (grid : List ℝ) (k : ℝ) (_hk : 0 < k) :
    gen_IMRPhenomD_NRTidalv2 q grid [Mc, eta, chi1, chi2, l1, l2, k * D, tc, phic] f_ref b nt =
      (gen_IMRPhenomD_NRTidalv2 q grid [Mc, eta, chi1, chi2, l1, l2, D, tc, phic] f_ref b nt).map
        fun h => h / (k : ℂ) := by
  rw [genNR_eq, genNR_eq, List.map_map]
  refine List.map_congr_left fun x _ => ?_
  simp only [Function.comp, nrStrain]
  have : ∀ (th : Theta) (co : Fin 19 → ℝ) (tf : TransFreqs) (thr : ℝ),
      ampAt th co tf (k * D) thr x = ampAt th co tf D thr x / k := by
    intro th co tf thr
    unfold ampAt
    have e : k * D * m_per_Mpc / C = D * m_per_Mpc / C * k := by ring
    rw [e, div_mul_eq_div_div]
  rw [this, tidal_amp_distance, ← add_div, mul_div_assoc']
  push_cast
  ring

lemma nrStrain_below {t : ThetaT} {thr x : ℝ} (h : x < thr) : nrStrain q t D tc phic f_ref nt thr x =
    ((taperAt t nt x * (ampAt (bbh t) (get_coeffs (bbh t)) (tfOf q (bbh t)) D thr x
      + get_tidal_amplitude (xAt t x) t (get_kappa t) D) : ℝ) : ℂ) *
    Complex.exp (Complex.I * (-(psiAt (bbh t) (get_coeffs (bbh t)) (tfOf q (bbh t)) tc phic f_ref x
      + extraPhase t x) : ℝ)) := by
  unfold nrStrain
  simp only
  rw [Jnp.heaviside_pos (x := thr - x) (by linarith), Jnp.heaviside_neg (x := x - thr) (by linarith)]
  simp only [mul_one, mul_zero, add_zero]
  rfl

/-- A coalescence-time shift multiplies each sample by exp(-2πi f dt) and a phase shift by exp(2i dphi), on grids below
    the cutoff. -/
theorem C50_time_phase (grid : List ℝ) (hne : grid ≠ []) (hl : ∀ x ∈ grid, x < fCut (thetaOf Mc eta chi1 chi2))
    (dt dphi : ℝ) (j : ℕ) (hj : j < grid.length) :
    (gen_IMRPhenomD_NRTidalv2 q grid [Mc, eta, chi1, chi2, l1, l2, D, tc + dt, phic + dphi] f_ref b nt).getD j 0 =
      (gen_IMRPhenomD_NRTidalv2 q grid [Mc, eta, chi1, chi2, l1, l2, D, tc, phic] f_ref b nt).getD j 0 *
        Complex.exp (-2 * Real.pi * Complex.I * (grid.getD j 0 : ℝ) * dt) * Complex.exp (2 * Complex.I * dphi) := by
  have hlast := hl _ (Jnp.getD_mem (l := grid) (i := grid.length - 1) (by omega))
  rw [genNR_eq, genNR_eq, map_getElem hj, map_getElem hj, cutThr_uncut hne hlast,
    nrStrain_below _ _ _ _ _ _ (hl _ (Jnp.getD_mem hj)), nrStrain_below _ _ _ _ _ _ (hl _ (Jnp.getD_mem hj)), mul_assoc,
    mul_assoc, ← Complex.exp_add, ← Complex.exp_add]
  congr 2
  unfold psiAt
  simp only [PI]
  push_cast
  ring

/-- The modulus does not depend on tc, phic and f_ref, on any grid. -/
theorem C50_modulus (grid : List ℝ) (tc' phic' f_ref' : ℝ) (j : ℕ) (hj : j < grid.length) :
    ‖(gen_IMRPhenomD_NRTidalv2 q grid [Mc, eta, chi1, chi2, l1, l2, D, tc', phic'] f_ref' b nt).getD j 0‖ =
      ‖(gen_IMRPhenomD_NRTidalv2 q grid [Mc, eta, chi1, chi2, l1, l2, D, tc, phic] f_ref b nt).getD j 0‖ := by
  rw [genNR_eq, genNR_eq, map_getElem hj, map_getElem hj]
  unfold nrStrain
  rw [norm_mul, norm_mul]
  congr 1
  have : ∀ p : ℝ, ‖Complex.exp (Complex.I * ((-p : ℝ) : ℂ))‖ = 1 := fun p => by
    rw [mul_comm]; exact Complex.norm_exp_ofReal_mul_I _
  rw [this, this]

/-! ### C46 black-hole limit -/

lemma thetaTOf_false : thetaTOf Mc eta chi1 chi2 l1 l2 false =
    ⟨(Mc_eta_to_ms Mc eta).1, (Mc_eta_to_ms Mc eta).2, chi1, chi2, l1, l2⟩ := rfl

lemma kappa_zero (m1 m2 c1 c2 : ℝ) : get_kappa ⟨m1, m2, c1, c2, 0, 0⟩ = 0 := by unfold get_kappa; simp

lemma tidal_amp_zero (x : ℝ) (t : ThetaT) : get_tidal_amplitude x t 0 D = 0 := by
  unfold get_tidal_amplitude; simp

lemma tidal_phase_zero (x : ℝ) (t : ThetaT) : get_tidal_phase x t 0 = 0 := by
  unfold get_tidal_phase; simp

lemma spin_zero (x m1 m2 l1 l2 : ℝ) : get_spin_phase_correction x ⟨m1, m2, 0, 0, l1, l2⟩ = 0 := by
  unfold get_spin_phase_correction; simp

lemma nr_black_hole (x thr : ℝ) :
    nrStrain q (thetaTOf Mc eta chi1 chi2 0 0 false) D tc phic f_ref nt thr x =
      (taperAt (thetaTOf Mc eta chi1 chi2 0 0 false) nt x : ℂ) *
      strainAt (thetaOf Mc eta chi1 chi2) (get_coeffs (thetaOf Mc eta chi1 chi2)) (tfOf q (thetaOf Mc eta chi1 chi2))
        D tc phic f_ref thr x *
      Complex.exp (Complex.I * (-(get_spin_phase_correction (xAt (thetaTOf Mc eta chi1 chi2 0 0 false) x)
        (thetaTOf Mc eta chi1 chi2 0 0 false)) : ℝ)) := by
  have hk : get_kappa (thetaTOf Mc eta chi1 chi2 0 0 false) = 0 := kappa_zero _ _ _ _
  unfold nrStrain strainAt
  simp only [hk, tidal_amp_zero, add_zero, extraPhase, tidal_phase_zero, zero_add, bbh_thetaTOf, tfOf]
  rw [mul_assoc (_ : ℂ) (_ * _) (Complex.exp _), mul_assoc (_ : ℂ) (Complex.exp _) (Complex.exp _), ← Complex.exp_add]
  rw [Complex.ofReal_mul, mul_assoc]
  congr 3
  push_cast
  ring

/-- Non-spinning black holes without taper: exactly the PhenomD strain, on every grid. -/
theorem C46_no_taper (grid : List ℝ) :
    gen_IMRPhenomD_NRTidalv2 q grid [Mc, eta, 0, 0, 0, 0, D, tc, phic] f_ref false true =
      gen_IMRPhenomD q grid [Mc, eta, 0, 0, D, tc, phic] f_ref := by
  rw [genNR_eq, genD_eq]
  refine List.map_congr_left fun x _ => ?_
  rw [nr_black_hole, thetaTOf_false, spin_zero]
  simp [taperAt]

/-- With the taper: the PhenomD strain times the Planck taper starting at the merger frequency
    0.3586 sqrt(m2/m1)/(2πM). -/
theorem C46_taper (grid : List ℝ) (hMc : 0 < Mc) (he : 0 < eta) (he' : eta ≤ 1 / 4) (j : ℕ) (hj : j < grid.length) :
    let m := Mc_eta_to_ms Mc eta
    let fm := 0.3586 * Real.sqrt (m.2 / m.1) / (2 * Real.pi * ((m.1 + m.2) * gt))
    ∃ r : ℝ, get_planck_taper (grid.getD j 0) fm = .fin r ∧
    (gen_IMRPhenomD_NRTidalv2 q grid [Mc, eta, 0, 0, 0, 0, D, tc, phic] f_ref false false).getD j 0 =
      (r : ℂ) * (gen_IMRPhenomD q grid [Mc, eta, 0, 0, D, tc, phic] f_ref).getD j 0 := by
  intro m fm
  have hm := C02_masses_ordered Mc eta hMc he he'
  have hm1 : 0 < m.1 := lt_of_lt_of_le hm.1 hm.2.1
  have hfm : _get_merger_frequency (thetaTOf Mc eta 0 0 0 0 false) 0 = fm :=
    C48_black_hole (thetaTOf Mc eta 0 0 0 0 false) hm1 hm.1
  have hfp : 0 < fm := by rw [← hfm]; exact C48_positive (thetaTOf Mc eta 0 0 0 0 false) hm1 hm.1 le_rfl
  obtain ⟨r, hr, -, -⟩ := C44_finite (grid.getD j 0) fm hfp
  refine ⟨r, hr, ?_⟩
  rw [genNR_eq, genD_eq, map_getElem hj, map_getElem hj, nr_black_hole]
  have hk : get_kappa (thetaTOf Mc eta 0 0 0 0 false) = 0 := kappa_zero _ _ _ _
  have ht : taperAt (thetaTOf Mc eta 0 0 0 0 false) false (grid.getD j 0) = r := by
    simp only [taperAt, Bool.false_eq_true, if_false, hk, hfm, hr, finPart]
  rw [ht, thetaTOf_false, spin_zero]
  simp

/-- Spinning black holes: the phase differs from PhenomD by the 3.5PN octupole term, because the octupole fit gives
    exp(0.003131) rather than 1 at zero deformability. -/
theorem C46_spinning (grid : List ℝ) (hMc : 0 < Mc) (he : 0 < eta) (he' : eta ≤ 1 / 4) (j : ℕ) (hj : j < grid.length) :
    let m := Mc_eta_to_ms Mc eta
    let X1 := m.1 / (m.1 + m.2)
    let X2 := m.2 / (m.1 + m.2)
    let x := (Real.pi * ((m.1 + m.2) * gt) * grid.getD j 0) ^ ((2 : ℝ) / 3)
    (gen_IMRPhenomD_NRTidalv2 q grid [Mc, eta, chi1, chi2, 0, 0, D, tc, phic] f_ref false true).getD j 0 =
      (gen_IMRPhenomD q grid [Mc, eta, chi1, chi2, D, tc, phic] f_ref).getD j 0 *
      Complex.exp (Complex.I * (3 / (128 * eta) * 440 * (Real.exp 0.003131 - 1) * (X1 ^ 3 * chi1 ^ 3 + X2 ^ 3 * chi2 ^ 3)
        * x : ℝ)) := by
  intro m X1 X2 x
  have hm := C02_masses_ordered Mc eta hMc he he'
  have hm1 : 0 < m.1 := lt_of_lt_of_le hm.1 hm.2.1
  have hm2 : 0 < m.2 := hm.1
  have hr : m.1 * m.2 / (m.1 + m.2) ^ 2 = eta := congrArg Prod.snd (C01_roundtrip_Mc_eta Mc eta hMc he he')
  rw [genNR_eq, genD_eq, map_getElem hj, map_getElem hj, nr_black_hole]
  have hx : xAt (thetaTOf Mc eta chi1 chi2 0 0 false) (grid.getD j 0) = x := by
    unfold xAt
    rw [bbh_thetaTOf, ← Ms_eq]; rfl
  rw [hx]
  have hoct : (get_quadparam_octparam 0).2 = Real.exp 0.003131 := by
    rw [C47_octupole 0 le_rfl, (C47_quadparam 0 le_rfl).1]; simp
  have hq := (C47_quadparam 0 le_rfl).1
  have hs : get_spin_phase_correction x (thetaTOf Mc eta chi1 chi2 0 0 false) =
      -(3 / (128 * eta) * 440 * (Real.exp 0.003131 - 1) * (X1 ^ 3 * chi1 ^ 3 + X2 ^ 3 * chi2 ^ 3) * x) := by
    have hg := gt_pos
    have x1 : m.1 * gt / (m.1 * gt + m.2 * gt) = X1 := by simp only [X1]; field_simp
    have x2 : m.2 * gt / (m.1 * gt + m.2 * gt) = X2 := by simp only [X2]; field_simp
    have e := TaylorF2.eta_s hm1 hm2
    rw [Spec.eta, hr] at e
    rw [thetaTOf_false]
    unfold get_spin_phase_correction
    simp only [hoct, hq]
    simp only [show Mc_eta_to_ms Mc eta = m from rfl, x1, x2, e]
    ring
  rw [hs, neg_neg]
  simp [taperAt]

lemma spinning_differs_of_ne (x : ℝ) (hx : 0 < x) (hMc : 0 < Mc) (he : 0 < eta) (he' : eta ≤ 1 / 4)
    (h1 : 0 < chi1) (h1' : chi1 ≤ 1) (h2 : 0 ≤ chi2) (h2' : chi2 ≤ chi1) (heta : 1 / 100 ≤ eta)
    (hxc : x < fCut (thetaOf Mc eta chi1 chi2))
    (hh : (gen_IMRPhenomD q [x] [Mc, eta, chi1, chi2, D, tc, phic] f_ref).getD 0 0 ≠ 0) :
    (gen_IMRPhenomD_NRTidalv2 q [x] [Mc, eta, chi1, chi2, 0, 0, D, tc, phic] f_ref false true).getD 0 0 ≠
      (gen_IMRPhenomD q [x] [Mc, eta, chi1, chi2, D, tc, phic] f_ref).getD 0 0 := by
  have hs := C46_spinning q Mc eta chi1 chi2 D tc phic f_ref [x] hMc he he' 0 (by simp)
  simp only [List.getD_cons_zero] at hs hh ⊢
  set m := Mc_eta_to_ms Mc eta with hmdef
  have hm := C02_masses_ordered Mc eta hMc he he'
  have hm2 : 0 < m.2 := hm.1
  have hm1 : 0 < m.1 := lt_of_lt_of_le hm.1 hm.2.1
  rw [hs]
  intro h
  have h' := mul_left_cancel₀ hh (h.trans (mul_one _).symm)
  set X1 := m.1 / (m.1 + m.2)
  set X2 := m.2 / (m.1 + m.2)
  have hX1 : 0 < X1 := by positivity
  have hX2 : 0 < X2 := by positivity
  have hX : X1 + X2 = 1 := by simp only [X1, X2]; field_simp
  have hg := gt_pos
  have hpi := Real.pi_pos
  set y := (Real.pi * ((m.1 + m.2) * gt) * x) ^ ((2 : ℝ) / 3)
  have hy0 : 0 < y := by positivity
  have hy1 : y ≤ 1 := by
    refine Real.rpow_le_one (by positivity) ?_ (by norm_num)
    have : x * ((m.1 + m.2) * gt) < 0.2 := by
      have := hxc
      unfold fCut at this
      rw [lt_div_iff₀ (by simp only [thetaOf]; positivity)] at this
      exact this
    have p4 := Real.pi_lt_four
    nlinarith
  have hE0 : 0 < Real.exp 0.003131 - 1 := by
    have := Real.add_one_lt_exp (x := 0.003131) (by norm_num); linarith
  have hE1 : Real.exp 0.003131 - 1 < 0.0033 := by
    have := Real.exp_bound_div_one_sub_of_interval (x := 0.003131) (by norm_num) (by norm_num)
    have h2 : (1 : ℝ) / (1 - 0.003131) < 1.0033 := by norm_num
    linarith
  set S := X1 ^ 3 * chi1 ^ 3 + X2 ^ 3 * chi2 ^ 3
  have hS0 : 0 < S := by
    have : 0 < X1 ^ 3 * chi1 ^ 3 := by positivity
    have : 0 ≤ X2 ^ 3 * chi2 ^ 3 := by positivity
    simp only [S]; linarith
  have hS1 : S ≤ 1 := by
    have a : chi1 ^ 3 ≤ 1 := pow_le_one₀ h1.le h1'
    have c : chi2 ^ 3 ≤ 1 := pow_le_one₀ h2 (h2'.trans h1')
    have b : X1 ^ 3 ≤ X1 := by
      have : X1 ≤ 1 := by linarith
      nlinarith [mul_pos hX1 hX1]
    have d : X2 ^ 3 ≤ X2 := by
      have : X2 ≤ 1 := by linarith
      nlinarith [mul_pos hX2 hX2]
    have e1 : X1 ^ 3 * chi1 ^ 3 ≤ X1 ^ 3 * 1 := mul_le_mul_of_nonneg_left a (by positivity)
    have e2 : X2 ^ 3 * chi2 ^ 3 ≤ X2 ^ 3 * 1 := mul_le_mul_of_nonneg_left c (by positivity)
    simp only [S]; linarith
  set P := 3 / (128 * eta) * 440 * (Real.exp 0.003131 - 1) * S * y with hP
  have hP0 : 0 < P := by positivity
  have hP1 : P < 6 := by
    have a : 3 / (128 * eta) * 440 ≤ 1040 := by
      rw [div_mul_eq_mul_div, div_le_iff₀ (by positivity)]; linarith
    have b : 3 / (128 * eta) * 440 * (Real.exp 0.003131 - 1) ≤ 1040 * 0.0033 :=
      mul_le_mul a hE1.le hE0.le (by norm_num)
    have c : 3 / (128 * eta) * 440 * (Real.exp 0.003131 - 1) * S ≤ 1040 * 0.0033 * 1 :=
      mul_le_mul b hS1 hS0.le (by norm_num)
    have d : P ≤ 1040 * 0.0033 * 1 * 1 := mul_le_mul c hy1 hy0.le (by norm_num)
    linarith
  rw [mul_comm, Complex.exp_mul_I] at h'
  have hre := congrArg Complex.re h'
  rw [← Complex.ofReal_cos, ← Complex.ofReal_sin] at hre
  simp at hre
  obtain ⟨n, hn⟩ := (Real.cos_eq_one_iff P).1 hre
  have p3 := Real.pi_gt_three
  have n0 : 0 < n := by
    by_contra hc
    have hc : (n : ℝ) ≤ 0 := by exact_mod_cast not_lt.1 hc
    nlinarith
  have n1 : (1 : ℝ) ≤ n := by exact_mod_cast n0
  nlinarith

/-- Consequently the two strains are different, for instance at every frequency between the peak of the amplitude and the
    cutoff, for every binary with eta ≥ 1/100, a spinning heavier body and a lighter one with no larger aligned spin. -/
theorem C46_spinning_differs (hq : q.Shipped) (x : ℝ) (hD : 0 < D) (hMc : 0 < Mc) (he : 0 < eta) (he' : eta ≤ 1 / 4)
    (h1 : 0 < chi1) (h1' : chi1 ≤ 1) (h2 : 0 ≤ chi2) (h2' : chi2 ≤ chi1)
    (heta : 1 / 100 ≤ eta) (h4 : (tfOf q (thetaOf Mc eta chi1 chi2)).f4 < x)
    (hxc : x < fCut (thetaOf Mc eta chi1 chi2)) :
    (gen_IMRPhenomD_NRTidalv2 q [x] [Mc, eta, chi1, chi2, 0, 0, D, tc, phic] f_ref false true).getD 0 0 ≠
      (gen_IMRPhenomD q [x] [Mc, eta, chi1, chi2, D, tc, phic] f_ref).getD 0 0 := by
  have hph := thetaOf_physical (chi1 := chi1) (chi2 := chi2) hMc he he' (abs_le.2 ⟨by linarith, h1'⟩)
    (abs_le.2 ⟨by linarith, h2'.trans h1'⟩)
  obtain ⟨a3, a34, -, -, ad, ag1, -, ag3⟩ := C74_amplitude_regions_ordered q hq _ hph
  have hx : 0 < x := a3.trans (a34.trans h4)
  exact spinning_differs_of_ne q Mc eta chi1 chi2 D tc phic f_ref x hx hMc he he' h1 h1' h2 h2' heta hxc
    (C33_not_local q Mc eta chi1 chi2 D tc phic f_ref x hx hMc he he' hD ag1 ag3 ad (a34.trans h4) h4 hxc).1

/-! ### C76 output above the cutoff -/

/-- With the taper every sample above 1.2 f_merger is exactly zero... -/
theorem C76_taper_zero (grid : List ℝ) (hMc : 0 < Mc) (he : 0 < eta) (he' : eta ≤ 1 / 4)
    (hl1 : 0 ≤ l1) (hl2 : 0 ≤ l2) (j : ℕ) (hj : j < grid.length)
    (hf : 1.2 * _get_merger_frequency (thetaTOf Mc eta chi1 chi2 l1 l2 false)
      (get_kappa (thetaTOf Mc eta chi1 chi2 l1 l2 false)) < grid.getD j 0) :
    (gen_IMRPhenomD_NRTidalv2 q grid [Mc, eta, chi1, chi2, l1, l2, D, tc, phic] f_ref false false).getD j 0 = 0 := by
  have hm := C02_masses_ordered Mc eta hMc he he'
  have hm1 : 0 < (Mc_eta_to_ms Mc eta).1 := lt_of_lt_of_le hm.1 hm.2.1
  set t := thetaTOf Mc eta chi1 chi2 l1 l2 false with ht
  have hk : 0 ≤ get_kappa t := by
    rw [C43_kappa t hm1 hm.1, Spec.lambdaTilde]
    have a1 : 0 < t.m1 := hm1
    have a2 : 0 < t.m2 := hm.1
    have a3 : 0 ≤ t.lambda1 := hl1
    have a4 : 0 ≤ t.lambda2 := hl2
    positivity
  have hpos := C48_positive t hm1 hm.1 hk
  rw [genNR_eq, map_getElem hj, ← ht]
  unfold nrStrain
  have : taperAt t false (grid.getD j 0) = 0 := by
    simp only [taperAt, Bool.false_eq_true, if_false, C44_above _ _ hpos hf, finPart]
  simp only [this, zero_mul, Complex.ofReal_zero]

/-- ... and the end of the taper lies below the cutoff 0.2/M. -/
theorem C76_taper_below_cutoff (hMc : 0 < Mc) (he : 0 < eta) (he' : eta ≤ 1 / 4) (hl1 : 0 ≤ l1) (hl2 : 0 ≤ l2) :
    1.2 * _get_merger_frequency (thetaTOf Mc eta chi1 chi2 l1 l2 false)
      (get_kappa (thetaTOf Mc eta chi1 chi2 l1 l2 false)) < fCut (thetaOf Mc eta chi1 chi2) := by
  have hm := C02_masses_ordered Mc eta hMc he he'
  have hm1 : 0 < (Mc_eta_to_ms Mc eta).1 := lt_of_lt_of_le hm.1 hm.2.1
  set t := thetaTOf Mc eta chi1 chi2 l1 l2 false with ht
  have a1 : 0 < t.m1 := hm1
  have a2 : 0 < t.m2 := hm.1
  have hk : 0 ≤ get_kappa t := by
    rw [C43_kappa t hm1 hm.1, Spec.lambdaTilde]
    have a3 : 0 ≤ t.lambda1 := hl1
    have a4 : 0 ≤ t.lambda2 := hl2
    positivity
  rw [merger_eq t hm1 hm.1]
  have hr := mergerRatio_le hk
  have hs : Real.sqrt (t.m2 / t.m1) ≤ 1 := by
    rw [Real.sqrt_le_one, div_le_one a1]; exact hm.2.1
  have hg := gt_pos
  have p3 := Real.pi_gt_three
  have hM : 0 < (t.m1 + t.m2) * gt := by positivity
  have e : fCut (thetaOf Mc eta chi1 chi2) = 0.2 / ((t.m1 + t.m2) * gt) := rfl
  rw [e]
  have h1 : 0.3586 * Real.sqrt (t.m2 / t.m1) / (2 * Real.pi * ((t.m1 + t.m2) * gt)) * mergerRatio (get_kappa t) ≤
      0.3586 * 1 / (2 * Real.pi * ((t.m1 + t.m2) * gt)) * 1 := by
    refine mul_le_mul ?_ hr (mergerRatio_pos hk).le (by positivity)
    exact div_le_div_of_nonneg_right (mul_le_mul_of_nonneg_left hs (by norm_num)) (by positivity)
  have h2 : 1.2 * (0.3586 * 1 / (2 * Real.pi * ((t.m1 + t.m2) * gt)) * 1) < 0.2 / ((t.m1 + t.m2) * gt) := by
    rw [mul_one, mul_one, ← mul_div_assoc, div_lt_div_iff₀ (by positivity) hM]
    nlinarith
  linarith [mul_le_mul_of_nonneg_left h1 (show (0:ℝ) ≤ 1.2 by norm_num)]

/-- Without the taper the samples above the cut threshold keep the tidal amplitude: they are non-zero for every deformable
    binary, and do not depend on tc, phic or f_ref. -/
theorem C76_no_taper (grid : List ℝ) (hinc : Increasing grid) (hMc : 0 < Mc) (he : 0 < eta) (he' : eta ≤ 1 / 4)
    (hD : 0 < D) (hl1 : 0 ≤ l1) (hl2 : 0 ≤ l2) (hl : 0 < l1 + l2) (i : ℕ)
    (hlast : fCut (thetaOf Mc eta chi1 chi2) ≤ grid.getD (grid.length - 1) 0)
    (hi : IsClosest grid (fCut (thetaOf Mc eta chi1 chi2)) i) (h0 : 0 < i) (j : ℕ) (hj : j < grid.length)
    (hij : i ≤ j + 1) (hpos : 0 < grid.getD j 0) (h3 : (tfOf q (thetaOf Mc eta chi1 chi2)).f3 < grid.getD j 0)
    (h4 : (tfOf q (thetaOf Mc eta chi1 chi2)).f4 < grid.getD j 0) :
    ∃ z : ℂ, z ≠ 0 ∧ ∀ tc phic f_ref : ℝ,
      (gen_IMRPhenomD_NRTidalv2 q grid [Mc, eta, chi1, chi2, l1, l2, D, tc, phic] f_ref false true).getD j 0 = z := by
  have hm := C02_masses_ordered Mc eta hMc he he'
  have hm1 : 0 < (Mc_eta_to_ms Mc eta).1 := lt_of_lt_of_le hm.1 hm.2.1
  set t := thetaTOf Mc eta chi1 chi2 l1 l2 false with ht
  have a1 : 0 < t.m1 := hm1
  have a2 : 0 < t.m2 := hm.1
  have hk : 0 < get_kappa t := by
    rw [C43_kappa t hm1 hm.1, Spec.lambdaTilde]
    have hnum : 0 < (t.m1 + 12 * t.m2) * t.m1 ^ 4 * t.lambda1 + (t.m2 + 12 * t.m1) * t.m2 ^ 4 * t.lambda2 := by
      have c1 : 0 < (t.m1 + 12 * t.m2) * t.m1 ^ 4 := by positivity
      have c2 : 0 < (t.m2 + 12 * t.m1) * t.m2 ^ 4 := by positivity
      have a3 : 0 ≤ t.lambda1 := hl1
      have a4 : 0 ≤ t.lambda2 := hl2
      have a5 : 0 < t.lambda1 + t.lambda2 := hl
      rcases a3.lt_or_eq with h | h
      · have := mul_pos c1 h
        have := mul_nonneg c2.le a4
        linarith
      · have : 0 < t.lambda2 := by linarith
        rw [← h, mul_zero, zero_add]
        exact mul_pos c2 this
    positivity
  have hle : grid.getD (i - 1) 0 ≤ grid.getD j 0 := by
    rcases Nat.lt_or_ge (i - 1) j with h | h
    · exact (hinc _ _ h hj).le
    · have : i - 1 = j := by omega
      rw [this]
  have hx : 0 < xAt t (grid.getD j 0) := by
    unfold xAt
    have hg := gt_pos
    have hM : 0 < Ms (bbh t) := by unfold Ms bbh; simp only; positivity
    have := PI_pos
    positivity
  refine ⟨((get_tidal_amplitude (xAt t (grid.getD j 0)) t (get_kappa t) D : ℝ) : ℂ) *
    Complex.exp (Complex.I * (-(2 * PI + extraPhase t (grid.getD j 0)) : ℝ)), ?_, fun tc phic f_ref => ?_⟩
  · refine mul_ne_zero ?_ (Complex.exp_ne_zero _)
    exact_mod_cast (C78_amplitude_sign t a1 a2 hk hD hx).ne
  · rw [genNR_eq, map_getElem hj, cutThr_pos hi h0 hlast, ← ht]
    unfold nrStrain
    simp only
    have c1 : Jnp.heaviside (grid.getD (i - 1) 0 - grid.getD j 0) 0 = 0 := by
      rcases hle.lt_or_eq with h | h
      · exact Jnp.heaviside_neg (by linarith)
      · rw [h, sub_self, Jnp.heaviside_zero]
    have c2 : Jnp.heaviside (grid.getD j 0 - grid.getD (i - 1) 0) 1 = 1 := by
      rcases hle.lt_or_eq with h | h
      · exact Jnp.heaviside_pos (by linarith)
      · rw [h, sub_self, Jnp.heaviside_zero]
    have c3 : ampAt (bbh t) (get_coeffs (bbh t))
        (get_transition_frequencies q (bbh t) (get_coeffs (bbh t) 5) (get_coeffs (bbh t) 6)) D (grid.getD (i - 1) 0)
        (grid.getD j 0) = 0 := ampAt_cut hle h3 h4
    rw [c1, c2, c3]
    simp [taperAt]

end
end Ripple

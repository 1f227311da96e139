/-
  Ringdown and damping frequency of PhenomPv2 on the two sides of the binaries whose aligned remnant spin vanishes.
-/
import Verif.Props.Pv2Grad
import Verif.Props.Pv2Phys

namespace Ripple
open scoped ContDiff Topology
open Set Filter PhenomD Pv2 V3 XAS

namespace Jump

/-- frequency read off a table at the remnant spin `a` -/
noncomputable def read (Q : QNM) (tab : List ℝ) (m1 m2 chi2 a x : ℝ) : ℝ :=
  Jnp.interp Q.eps a Q.a tab / (1 - EradRational0815 (m1 * gt * (m2 * gt) / (m1 * gt + m2 * gt) ^ 2) x chi2) / (m1 * gt + m2 * gt)

lemma fRD_eq (Q : QNM) (m1 m2 x chi2 chip : ℝ) :
    (phP_get_fRD_fdamp Q m1 m2 x chi2 chip).1 = read Q Q.fRD m1 m2 chi2 (FinalSpin_inplane m1 m2 x chi2 chip) x := rfl

lemma fdamp_eq (Q : QNM) (m1 m2 x chi2 chip : ℝ) :
    (phP_get_fRD_fdamp Q m1 m2 x chi2 chip).2 = read Q Q.fdamp m1 m2 chi2 (FinalSpin_inplane m1 m2 x chi2 chip) x := rfl

variable {m1 m2 chi2 chip c : ℝ}

lemma spin_eq (h2 : 0 < m2) (h : m2 ≤ m1) (x : ℝ) : FinalSpin_inplane m1 m2 x chi2 chip =
    Jnp.copysign1 (remnantSpinOf ⟨m1, m2, x, chi2⟩) *
      √((chip * (m1 / (m1 + m2)) ^ 2) ^ 2 + remnantSpinOf ⟨m1, m2, x, chi2⟩ ^ 2) := by
  have := aligned_eq (0, 0, x) (0, 0, chi2) h2 h
  dsimp only at this
  unfold FinalSpin_inplane
  dsimp only
  rw [this]
  congr 2
  ring

lemma parallel_cont : Continuous (fun x => remnantSpinOf ⟨m1, m2, x, chi2⟩) := by
  unfold remnantSpinOf FinalSpin0815_s
  dsimp only
  fun_prop

lemma parallel_mono (h2 : 0 < m2) (h1 : 0 < m1) (hc : |chi2| ≤ 1) {x y : ℝ} (hx : -1 ≤ x) (hxy : x < y) (hy : y ≤ 1) :
    remnantSpinOf ⟨m1, m2, x, chi2⟩ < remnantSpinOf ⟨m1, m2, y, chi2⟩ :=
  C94_spin_increasing ⟨m1, m2, x, chi2⟩ ⟨m1, m2, y, chi2⟩
    ⟨h1, h2, abs_le.2 ⟨hx, by linarith⟩, hc⟩ ⟨h1, h2, abs_le.2 ⟨by linarith, hy⟩, hc⟩ rfl rfl hxy.le le_rfl
    (fun h => hxy.ne (congrArg Theta.chi1 h))

/-- On the left of the zero of the aligned remnant spin the remnant spin tends to minus the in-plane spin. -/
lemma spin_left (h2 : 0 < m2) (h : m2 ≤ m1) (hc : |chi2| ≤ 1) (c0 : -1 < c) (c1 : c ≤ 1) (hp : 0 ≤ chip)
    (h0 : remnantSpinOf ⟨m1, m2, c, chi2⟩ = 0) :
    Tendsto (fun x => FinalSpin_inplane m1 m2 x chi2 chip) (𝓝[<] c) (𝓝 (-(chip * (m1 / (m1 + m2)) ^ 2))) := by
  have h1 : 0 < m1 := lt_of_lt_of_le h2 h
  have k : Continuous fun x =>
      -√((chip * (m1 / (m1 + m2)) ^ 2) ^ 2 + remnantSpinOf ⟨m1, m2, x, chi2⟩ ^ 2) := by
    have := parallel_cont (m1 := m1) (m2 := m2) (chi2 := chi2)
    fun_prop
  have t : Tendsto _ (𝓝[<] c) _ := (k.tendsto c).mono_left nhdsWithin_le_nhds
  rw [h0, zero_pow two_ne_zero, add_zero, Real.sqrt_sq (by positivity)] at t
  refine t.congr' ?_
  filter_upwards [Ioo_mem_nhdsLT c0] with x hx
  have hm := parallel_mono h2 h1 hc hx.1.le hx.2 c1
  rw [h0] at hm
  rw [spin_eq h2 h, Jnp.copysign1, if_pos hm, neg_one_mul]

/-- At the zero it is the in-plane spin. -/
lemma spin_at (h2 : 0 < m2) (h : m2 ≤ m1) (hp : 0 ≤ chip) (h0 : remnantSpinOf ⟨m1, m2, c, chi2⟩ = 0) :
    FinalSpin_inplane m1 m2 c chi2 chip = chip * (m1 / (m1 + m2)) ^ 2 := by
  have h1 : 0 < m1 := lt_of_lt_of_le h2 h
  rw [spin_eq h2 h, h0, Jnp.copysign1, if_neg (lt_irrefl 0), zero_pow two_ne_zero, add_zero, Real.sqrt_sq (by positivity),
    one_mul]

lemma energy (h2 : 0 < m2) (h : m2 < m1) (hc : |chi2| ≤ 1) (c0 : -1 ≤ c) (c1 : c ≤ 1) :
    ContinuousAt (fun x => EradRational0815 (m1 * gt * (m2 * gt) / (m1 * gt + m2 * gt) ^ 2) x chi2) c ∧
    0 < 1 - EradRational0815 (m1 * gt * (m2 * gt) / (m1 * gt + m2 * gt) ^ 2) c chi2 := by
  have S : SmoothFam (fun x : ℝ => (⟨m1, m2, x, chi2⟩ : Theta)) c :=
    ⟨contDiffAt_const, contDiffAt_const, contDiffAt_id, contDiffAt_const,
      ⟨h2.trans h, h2, abs_le.2 ⟨c0, c1⟩, hc⟩, h.ne'⟩
  refine ⟨S.Erad_smooth.continuousAt, ?_⟩
  have e := eta_s_range S.phys.m1_pos S.phys.m2_pos
  have := Erad_lt _ _ _ e.1 e.2 S.phys.chi1_le S.phys.chi2_le
  dsimp only at this
  linarith

/-- Left limit of a frequency read off a table. -/
lemma read_left {Q : QNM} (hq : Q.Shipped) (tab : List ℝ) (h2 : 0 < m2) (h : m2 < m1) (hc : |chi2| ≤ 1) (c0 : -1 < c)
    (c1 : c ≤ 1) (hp : 0 ≤ chip) (h0 : remnantSpinOf ⟨m1, m2, c, chi2⟩ = 0) :
    Tendsto (fun x => read Q tab m1 m2 chi2 (FinalSpin_inplane m1 m2 x chi2 chip) x) (𝓝[<] c)
      (𝓝 (read Q tab m1 m2 chi2 (-(chip * (m1 / (m1 + m2)) ^ 2)) c)) := by
  obtain ⟨E1, E2⟩ := energy h2 h hc c0.le c1
  have t := spin_left h2 h.le hc c0 c1 hp h0
  have i := ((interp_continuous hq.eps_nonneg hq.good tab).tendsto _).comp t
  exact (i.div (tendsto_const_nhds.sub (E1.tendsto.mono_left nhdsWithin_le_nhds)) E2.ne').div_const _

/-- ringdown amplitude in units of the total mass -/
noncomputable def ring (g1 g2 g3 y R D : ℝ) : ℝ :=
  Real.exp ((-(y - R)) * g2 / (D * g3)) * (D * g3 * g1) / ((y - R) ^ 2 + (D * g3) ^ 2)

lemma ring_eq {g1 g2 g3 y R D x : ℝ} (h3 : 0 < g3) (hD : 0 < D) (hx : y - R = x * D) :
    ring g1 g2 g3 y R D = Real.exp (-(x * (g2 / g3))) * (g3 * g1) / (D * (x ^ 2 + g3 ^ 2)) := by
  unfold ring
  rw [hx, show -(x * D) * g2 / (D * g3) = -(x * (g2 / g3)) by field_simp]
  field_simp

/-- Above the ringdown frequency the amplitude grows if the ringdown frequency grows and the damping frequency falls. -/
lemma ring_lt {g1 g2 g3 y R1 R2 D1 D2 : ℝ} (h1 : 0 < g1) (h2 : 0 < g2) (h3 : 0 < g3) (hD2 : 0 < D2) (hD : D2 < D1)
    (hR : R2 < y) (hx : (y - R2) * D1 < (y - R1) * D2) : ring g1 g2 g3 y R1 D1 < ring g1 g2 g3 y R2 D2 := by
  have hD1 : 0 < D1 := hD2.trans hD
  obtain ⟨x1, e1⟩ : ∃ x, y - R1 = x * D1 := ⟨(y - R1) / D1, (div_mul_cancel₀ _ hD1.ne').symm⟩
  obtain ⟨x2, e2⟩ : ∃ x, y - R2 = x * D2 := ⟨(y - R2) / D2, (div_mul_cancel₀ _ hD2.ne').symm⟩
  have p2 : 0 < x2 := by
    by_contra hn
    push Not at hn
    have := mul_nonpos_of_nonpos_of_nonneg hn hD2.le
    linarith
  have hlt : x2 < x1 := by
    rw [e1, e2] at hx
    by_contra hn
    push Not at hn
    have := mul_le_mul_of_nonneg_right hn (mul_pos hD1 hD2).le
    nlinarith only [this, hx]
  rw [ring_eq h3 hD1 e1, ring_eq h3 hD2 e2]
  refine div_lt_div₀' ?_ ?_ (by positivity) (by positivity)
  · refine mul_le_mul_of_nonneg_right (Real.exp_le_exp.2 ?_) (by positivity)
    have : 0 < g2 / g3 := by positivity
    have := mul_lt_mul_of_pos_right hlt this
    linarith
  · refine mul_lt_mul hD (by nlinarith) (by positivity) hD1.le

lemma ring_pos {g1 g2 g3 y R D : ℝ} (h1 : 0 < g1) (h3 : 0 < g3) (hD : 0 < D) : 0 < ring g1 g2 g3 y R D := by
  unfold ring
  positivity

/-- Between the last transition frequency and the cutoff the amplitude is the ringdown amplitude times a factor that depends
    on the masses, the distance and the frequency only. -/
lemma ampAt_ring (theta : Theta) (coeffs : Fin 19 → ℝ) (tf : TransFreqs) (D : ℝ) {thr x : ℝ} (h3 : tf.f3 < x) (h4 : tf.f4 < x)
    (ht : x < thr) : ampAt theta coeffs tf D thr x =
      PhenomD.get_Amp0 (x * Ms theta) (theta.m1 * gt * (theta.m2 * gt) / Ms theta ^ 2) * (2 * Real.sqrt (5 / (64 * PI))) * Ms theta ^ 2
        / (D * m_per_Mpc / C) *
      ring (coeffs 4) (coeffs 5) (coeffs 6) (x * Ms theta) (tf.f_RD * Ms theta) (tf.f_damp * Ms theta) := by
  unfold ampAt
  rw [Jnp.heaviside_neg (x := tf.f3 - x) (by linarith), Jnp.heaviside_pos (x := x - tf.f3) (by linarith),
    Jnp.heaviside_neg (x := tf.f4 - x) (by linarith), Jnp.heaviside_pos (x := x - tf.f4) (by linarith),
    Jnp.heaviside_pos (x := thr - x) (by linarith)]
  rw [show get_IIb_Amp (x * Ms theta) theta coeffs tf.f_RD tf.f_damp =
    ring (coeffs 4) (coeffs 5) (coeffs 6) (x * Ms theta) (tf.f_RD * Ms theta) (tf.f_damp * Ms theta) from rfl]
  ring

/-- The instantaneous inclination depends continuously on the parameters. -/
lemma cosInst_cont {E : Type} [NormedAddCommGroup E] [NormedSpace ℝ E] {m1 m2 : E → ℝ} {s1 s2 : E → V3} {e0 : E}
    {c : E → Converted} (h : PBase m1 m2 s1 s2 (fun e => (c e).chip) e0) {f_ref f : ℝ} (hr : 0 < f_ref) (hf : 0 < f)
    (c0 : 0 < (c e0).chip) (hth : ContDiffAt ℝ ∞ (fun e => (c e).thetaJN) e0)
    (hal : ContDiffAt ℝ ∞ (fun e => Complex.exp (Complex.I * (((c e).alpha0 : ℝ) : ℂ))) e0)
    (hL : LplusS (m1 e0) (m2 e0) (s1 e0) (s2 e0) f ≠ 0) :
    ContinuousAt (fun e => cosInst (m1 e) (m2 e) (s1 e) (s2 e) (c e) f_ref f) e0 := by
  have k1 := (h.cone_fam (f := fun _ => f) contDiffAt_const hf c0 hL).continuousAt
  have k2 := hth.continuousAt
  have a1 := (h.alpha_fam (f := fun _ => f) contDiffAt_const hf).continuousAt
  have a2 := (h.alpha_fam (f := fun _ => f_ref) contDiffAt_const hr).continuousAt
  have k3 := hal.continuousAt
  have hcos : ContinuousAt (fun e => Real.cos (azimuth (m1 e) (m2 e) (s1 e) (s2 e) (c e) f_ref f)) e0 := by
    obtain ⟨A, eA⟩ : ∃ A : E → ℝ, ∀ e, alphaS (angP (m1 e) (m2 e) (s1 e) (s2 e) (c e).chip) (Real.pi * ((m1 e + m2 e) * gt) * f)
      - alphaS (angP (m1 e) (m2 e) (s1 e) (s2 e) (c e).chip) (Real.pi * ((m1 e + m2 e) * gt) * f_ref) = A e := ⟨_, fun _ => rfl⟩
    have cA : ContinuousAt A e0 := by
      rw [← funext eA]
      exact a1.sub a2
    have e : ∀ e, Real.cos (azimuth (m1 e) (m2 e) (s1 e) (s2 e) (c e) f_ref f) =
        (Complex.exp (Complex.I * ((A e : ℝ) : ℂ)) * Complex.exp (Complex.I * (((c e).alpha0 : ℝ) : ℂ))).re := by
      intro e
      unfold azimuth
      rw [eA, ← Complex.exp_add, ← mul_add, ← Complex.ofReal_add, mul_comm Complex.I, Complex.exp_ofReal_mul_I_re]
    simp only [e]
    refine Complex.continuous_re.continuousAt.comp (ContinuousAt.mul ?_ k3)
    exact Complex.continuous_exp.continuousAt.comp
      (continuousAt_const.mul (Complex.continuous_ofReal.continuousAt.comp cA))
  unfold cosInst
  exact ((Real.continuous_cos.continuousAt.comp k1).mul (Real.continuous_cos.continuousAt.comp k2)).add
    (((Real.continuous_sin.continuousAt.comp k1).mul (Real.continuous_sin.continuousAt.comp k2)).mul hcos)

variable {s2 : V3} {p q : ℝ}

set_option maxHeartbeats 1000000 in
/-- Neither polarisation can be continuous if the ringdown amplitudes on the two sides differ. -/
lemma no_extension {Q : QNM} (hq : Q.Shipped) (h2 : 0 < m2) (h : m2 < m1) (hs1 : len (p, q, c) < 1) (hs2 : len s2 ≤ 1)
    {D tc phiRef incl f_ref : ℝ} (hD : 0 < D) (hr : 0 < f_ref)
    (plane : (4 * m2 + 3 * m1) * m2 / ((4 * m1 + 3 * m2) * m1) * √(s2.1 ^ 2 + s2.2.1 ^ 2) ≠ √(p ^ 2 + q ^ 2))
    (tilt : (totalJ gt m2 m1 f_ref s2 (p, q, c)).1 ≠ 0 ∨ (totalJ gt m2 m1 f_ref s2 (p, q, c)).2.1 ≠ 0)
    (sight : V3.cross (totalJ gt m2 m1 f_ref s2 (p, q, c)) (dir incl (Real.pi / 2 - phiRef)) ≠ 0)
    (h0 : remnantSpinOf ⟨m1, m2, c, s2.2.2⟩ = 0) {grid : List ℝ} {j : ℕ} (hj : j < grid.length) (hf : 0 < grid.getD j 0)
    (hL : LplusS m1 m2 (p, q, c) s2 (grid.getD j 0) ≠ 0)
    (ht : grid.getD j 0 < cutThr grid (0.2 / ((m1 + m2) * gt)))
    {S RL RR DL DR : ℝ} (eS : S = precessionSpin m1 m2 (p, q, c) s2 * (m1 / (m1 + m2)) ^ 2)
    (eRL : RL = read Q Q.fRD m1 m2 s2.2.2 (-S) c) (eRR : RR = read Q Q.fRD m1 m2 s2.2.2 S c)
    (eDL : DL = read Q Q.fdamp m1 m2 s2.2.2 (-S) c) (eDR : DR = read Q Q.fdamp m1 m2 s2.2.2 S c)
    (kL : RL < grid.getD j 0) (kR : RR < grid.getD j 0) (kD0 : 0 < DR) (kD : DR < DL)
    (kx : (grid.getD j 0 - RR) * DL < (grid.getD j 0 - RL) * DR)
    (P X : ℝ → ℂ) (hP : ContinuousAt P c) (hX : ContinuousAt X c)
    (e : ∀ x, ∃ hp hc, gen_IMRPhenomPv2 Q grid (pars m1 m2 (p, q, x) s2 D tc phiRef incl) f_ref = .ok (hp, hc) ∧
      hp.getD j 0 = P x ∧ hc.getD j 0 = X x) : False := by
  obtain ⟨f, ef⟩ : ∃ f, f = grid.getD j 0 := ⟨_, rfl⟩
  rw [← ef] at hf hL ht kL kR kx
  have h1 : 0 < m1 := h2.trans h
  have hg := gt_pos
  have hJ : 0 < (totalJ gt m2 m1 f_ref s2 (p, q, c)).1 ^ 2 + (totalJ gt m2 m1 f_ref s2 (p, q, c)).2.1 ^ 2 := by
    rcases tilt with t | t <;> positivity
  have cS : ContDiffAt ℝ ∞ (fun x : ℝ => ((p, q, x) : V3)) c :=
    ContDiffAt.prodMk (by fun_prop) (ContDiffAt.prodMk (by fun_prop) (by fun_prop))
  obtain ⟨C1, C2, C3, C4, -, -, -⟩ := conv_smooth (e0 := c) (a := fun _ => m2) (b := fun _ => m1) (phi := fun _ => phiRef)
    (inc := fun _ => incl) (u := fun _ => s2) (v := fun x => (p, q, x)) contDiffAt_const contDiffAt_const contDiffAt_const cS
    contDiffAt_const contDiffAt_const h2 h1 hr hJ sight plane
  have B : PBase (fun _ : ℝ => m1) (fun _ => m2) (fun x => (p, q, x)) (fun _ => s2)
      (fun x => (conv m2 m1 f_ref phiRef incl s2 (p, q, x)).chip) c :=
    ⟨contDiffAt_const, contDiffAt_const, cS, contDiffAt_const, C1, h2, h, hs1.le, hs2⟩
  have cos := cosInst_cont B hr hf C2 C3 C4 hL
  have hLc := (B.LplusS_fam (f := fun _ => f) contDiffAt_const hf).continuousAt
  have echip : ∀ x, (conv m2 m1 f_ref phiRef incl s2 (p, q, x)).chip = precessionSpin m1 m2 (p, q, c) s2 := fun x => by
    rw [C57_value f_ref phiRef incl s2 (p, q, x) h2 h1]
    rfl
  obtain ⟨chip, ec⟩ : ∃ k, k = precessionSpin m1 m2 (p, q, c) s2 := ⟨_, rfl⟩
  rw [← ec] at eS
  simp only [← ec] at echip
  dsimp only at C2
  rw [echip] at C2
  have zc := z_le hs1.le
  have zc' : |s2.2.2| ≤ 1 := abs_le.2 (z_le hs2)
  have c0 : -1 < c := by
    have : c ^ 2 < 1 := by
      unfold len V3.dot at hs1
      have := (Real.sqrt_lt' one_pos).1 hs1
      nlinarith [sq_nonneg p, sq_nonneg q]
    nlinarith
  dsimp only at zc
  have tR := read_left hq Q.fRD h2 h zc' c0 zc.2 C2.le h0
  have tD := read_left hq Q.fdamp h2 h zc' c0 zc.2 C2.le h0
  rw [← eS, ← eRL] at tR
  rw [← eS, ← eDL] at tD
  have aR : (tfP Q m1 m2 (p, q, c) s2 chip).f_RD = RR := by
    rw [eRR, eS, ← spin_at h2 h.le C2.le h0]
    rfl
  have aD : (tfP Q m1 m2 (p, q, c) s2 chip).f_damp = DR := by
    rw [eDR, eS, ← spin_at h2 h.le C2.le h0]
    rfl
  have eMs : ∀ x, Ms (thetaP m1 m2 (p, q, x) s2) = (m1 + m2) * gt := fun x => by rw [← Ms_eq]; rfl
  have hM : 0 < (m1 + m2) * gt := by positivity
  obtain ⟨A, eA⟩ : ∃ A : ℝ → ℝ, ∀ x, A x = ampAt (thetaP m1 m2 (p, q, x) s2) (get_coeffs (thetaP m1 m2 (p, q, x) s2))
    (tfP Q m1 m2 (p, q, x) s2 chip) D (cutThr grid (PhenomD.fM_CUT / Ms (thetaP m1 m2 (p, q, x) s2))) f := ⟨_, fun _ => rfl⟩
  have ecut : ∀ x, f < cutThr grid (PhenomD.fM_CUT / Ms (thetaP m1 m2 (p, q, x) s2)) := fun x => by
    rw [eMs]
    exact ht
  obtain ⟨K, eK⟩ : ∃ K, K = PhenomD.get_Amp0 (f * ((m1 + m2) * gt)) (m1 * gt * (m2 * gt) / ((m1 + m2) * gt) ^ 2) *
    (2 * Real.sqrt (5 / (64 * PI))) * ((m1 + m2) * gt) ^ 2 / (D * m_per_Mpc / C) := ⟨_, rfl⟩
  have K0 : 0 < K := by
    have hmp := m_per_Mpc_pos
    have hC := C_pos
    have hp := PI_pos
    rw [eK]
    unfold PhenomD.get_Amp0
    dsimp only
    positivity
  have aA : ∀ x, len (p, q, x) ≤ 1 → (tfP Q m1 m2 (p, q, x) s2 chip).f_RD < f → A x = K *
      Jump.ring (get_coeffs (thetaP m1 m2 (p, q, x) s2) 4) (get_coeffs (thetaP m1 m2 (p, q, x) s2) 5)
        (get_coeffs (thetaP m1 m2 (p, q, x) s2) 6) (f * ((m1 + m2) * gt))
        ((tfP Q m1 m2 (p, q, x) s2 chip).f_RD * ((m1 + m2) * gt)) ((tfP Q m1 m2 (p, q, x) s2 chip).f_damp * ((m1 + m2) * gt)) := by
    intro x hx hk
    obtain ⟨-, -, -, -, k3, k4, -, -⟩ := C96_regions_ordered (p, q, x) s2 Q hq h2 h.le hx hs2 chip
    rw [eA, ampAt_ring _ _ _ _ (by linarith) (by linarith) (ecut x), eMs, eK]
    rfl
  have Sm := B.toSmooth
  obtain ⟨g1, g2, g3, -⟩ := coeffs_range Sm.phys
  have G : ∀ i, Tendsto (fun x => get_coeffs (thetaP m1 m2 (p, q, x) s2) i) (𝓝[<] c)
      (𝓝 (get_coeffs (thetaP m1 m2 (p, q, c) s2) i)) := fun i =>
    (Sm.coeffs i).continuousAt.tendsto.mono_left nhdsWithin_le_nhds
  have lenev : ∀ᶠ x in 𝓝[<] c, len (p, q, x) ≤ 1 := by
    have : Continuous fun x : ℝ => len (p, q, x) := by
      unfold len V3.dot
      fun_prop
    exact nhdsWithin_le_nhds ((this.tendsto c).eventually_lt_const hs1 |>.mono fun _ => le_of_lt)
  have dpos : 0 < DL := kD0.trans kD
  have tA : Tendsto A (𝓝[<] c) (𝓝 (K * Jump.ring (get_coeffs (thetaP m1 m2 (p, q, c) s2) 4)
      (get_coeffs (thetaP m1 m2 (p, q, c) s2) 5) (get_coeffs (thetaP m1 m2 (p, q, c) s2) 6) (f * ((m1 + m2) * gt))
      (RL * ((m1 + m2) * gt)) (DL * ((m1 + m2) * gt)))) := by
    have t : Tendsto (fun x => K * Jump.ring (get_coeffs (thetaP m1 m2 (p, q, x) s2) 4)
        (get_coeffs (thetaP m1 m2 (p, q, x) s2) 5)
        (get_coeffs (thetaP m1 m2 (p, q, x) s2) 6) (f * ((m1 + m2) * gt))
        (read Q Q.fRD m1 m2 s2.2.2 (FinalSpin_inplane m1 m2 x s2.2.2 chip) x * ((m1 + m2) * gt))
        (read Q Q.fdamp m1 m2 s2.2.2 (FinalSpin_inplane m1 m2 x s2.2.2 chip) x * ((m1 + m2) * gt))) (𝓝[<] c)
        (𝓝 (K * Jump.ring (get_coeffs (thetaP m1 m2 (p, q, c) s2) 4)
      (get_coeffs (thetaP m1 m2 (p, q, c) s2) 5) (get_coeffs (thetaP m1 m2 (p, q, c) s2) 6) (f * ((m1 + m2) * gt))
      (RL * ((m1 + m2) * gt)) (DL * ((m1 + m2) * gt)))) := by
      have n1 : DL * ((m1 + m2) * gt) * get_coeffs (thetaP m1 m2 (p, q, c) s2) 6 ≠ 0 := by
        have : 0 < get_coeffs (thetaP m1 m2 (p, q, c) s2) 6 := by linarith
        positivity
      have r := (tR.mul_const ((m1 + m2) * gt)).const_sub (f * ((m1 + m2) * gt))
      have d := (tD.mul_const ((m1 + m2) * gt)).mul (G 6)
      unfold Jump.ring
      refine Tendsto.const_mul K (Tendsto.div (Tendsto.mul ?_ (d.mul (G 4))) ((r.pow 2).add (d.pow 2)) ?_)
      · exact (Real.continuous_exp.tendsto _).comp (((r.neg).mul (G 5)).div d n1)
      · have : 0 < (DL * ((m1 + m2) * gt) * get_coeffs (thetaP m1 m2 (p, q, c) s2) 6) ^ 2 := by positivity
        have := sq_nonneg (f * ((m1 + m2) * gt) - RL * ((m1 + m2) * gt))
        positivity
    refine t.congr' ?_
    filter_upwards [lenev, tR.eventually_lt_const kL] with x hx hk
    exact (aA x hx hk).symm
  have vA := aA c hs1.le (by rw [aR]; exact kR)
  rw [aR, aD] at vA
  -- the limit is smaller than the value
  have hlt := ring_lt (g1 := get_coeffs (thetaP m1 m2 (p, q, c) s2) 4) (g2 := get_coeffs (thetaP m1 m2 (p, q, c) s2) 5)
    (g3 := get_coeffs (thetaP m1 m2 (p, q, c) s2) 6) (y := f * ((m1 + m2) * gt)) (R1 := RL * ((m1 + m2) * gt))
    (R2 := RR * ((m1 + m2) * gt)) (D1 := DL * ((m1 + m2) * gt)) (D2 := DR * ((m1 + m2) * gt)) (by linarith) (by linarith)
    (by linarith) (by positivity) (mul_lt_mul_of_pos_right kD hM) (mul_lt_mul_of_pos_right kR hM)
    (by
      have := mul_lt_mul_of_pos_right kx (mul_pos hM hM)
      nlinarith only [this])
  have hpos := ring_pos (g1 := get_coeffs (thetaP m1 m2 (p, q, c) s2) 4) (g2 := get_coeffs (thetaP m1 m2 (p, q, c) s2) 5)
    (g3 := get_coeffs (thetaP m1 m2 (p, q, c) s2) 6) (y := f * ((m1 + m2) * gt)) (R := RL * ((m1 + m2) * gt))
    (D := DL * ((m1 + m2) * gt)) (by linarith) (by linarith) (by positivity)
  have l1 := mul_lt_mul_of_pos_left hlt K0
  have l0 := mul_pos K0 hpos
  rw [← vA] at l1
  obtain ⟨AL, eAL⟩ : ∃ a, a = K * Jump.ring (get_coeffs (thetaP m1 m2 (p, q, c) s2) 4)
      (get_coeffs (thetaP m1 m2 (p, q, c) s2) 5) (get_coeffs (thetaP m1 m2 (p, q, c) s2) 6) (f * ((m1 + m2) * gt))
      (RL * ((m1 + m2) * gt)) (DL * ((m1 + m2) * gt)) := ⟨_, rfl⟩
  rw [← eAL] at l0 l1 tA
  -- total power
  obtain ⟨t, et⟩ : ∃ t : ℝ → ℝ, ∀ x, t x = cosInst m1 m2 (p, q, x) s2 (conv m2 m1 f_ref phiRef incl s2 (p, q, x)) f_ref f :=
    ⟨_, fun _ => rfl⟩
  simp only [← et] at cos
  have pw : ∀ x, LplusS m1 m2 (p, q, x) s2 f ≠ 0 →
      ‖P x‖ ^ 2 + ‖X x‖ ^ 2 = A x ^ 2 * (((1 + t x ^ 2) / 2) ^ 2 + t x ^ 2) := by
    intro x hx
    obtain ⟨hp, hc, e1, e2, e3⟩ := e x
    obtain ⟨hp', hc', e1', hall⟩ := C60_power Q grid (p, q, x) s2 D tc phiRef incl f_ref h2 h.le
    rw [e1] at e1'
    obtain ⟨rfl, rfl⟩ := Prod.mk.inj (Except.ok.inj e1')
    obtain ⟨k, -, -⟩ := hall j hj (by rw [← ef]; exact hf) (by rw [← ef]; exact hx)
    rw [e2, e3] at k
    rw [k, et, eA, echip, ← ef]
    congr 2
    simp only [ampP, PhenomD.Amp_eq]
    rw [List.getD_eq_getElem _ _ (by simpa using hj), ef, List.getD_eq_getElem _ _ hj]
    simp
  have evL : ∀ᶠ x in 𝓝[<] c, LplusS m1 m2 (p, q, x) s2 f ≠ 0 := nhdsWithin_le_nhds (hLc.eventually_ne hL)
  have T1 : Tendsto (fun x => ‖P x‖ ^ 2 + ‖X x‖ ^ 2) (𝓝[<] c) (𝓝 (‖P c‖ ^ 2 + ‖X c‖ ^ 2)) :=
    ((hP.norm.pow 2).add (hX.norm.pow 2)).tendsto.mono_left nhdsWithin_le_nhds
  have T2 : Tendsto (fun x => ((1 + t x ^ 2) / 2) ^ 2 + t x ^ 2) (𝓝[<] c) (𝓝 (((1 + t c ^ 2) / 2) ^ 2 + t c ^ 2)) :=
    (((((cos.pow 2).const_add 1).div_const 2).pow 2).add (cos.pow 2)).tendsto.mono_left nhdsWithin_le_nhds
  have T3 := ((tA.pow 2).mul T2).congr' (evL.mono fun x hx => (pw x hx).symm)
  have heq := tendsto_nhds_unique T1 T3
  rw [pw c hL] at heq
  have w0 : 0 < ((1 + t c ^ 2) / 2) ^ 2 + t c ^ 2 := by positivity
  have := mul_right_cancel₀ w0.ne' heq
  nlinarith

end Jump
end Ripple

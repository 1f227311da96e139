/-
  Properties C24–C26: PhenomD amplitude connection polynomial, amplitude peak, transition frequencies.
-/
import Verif.Proofs.Delta
import Verif.Proofs.Peak
import Verif.Proofs.Interp
import Verif.Props.PhenomDSmooth

namespace Ripple
open PhenomD Set

/-! ### C24 -/

/-- The quartic built from `get_delta0..4` takes the prescribed values and slopes. -/
theorem C24_interpolates (f1 f2 f3 v1 v2 v3 d1 d3 : ℝ) (h12 : f1 ≠ f2) (h13 : f1 ≠ f3) (h23 : f2 ≠ f3) :
    let p : ℝ → ℝ := fun x => get_delta0 f1 f2 f3 v1 v2 v3 d1 d3 + get_delta1 f1 f2 f3 v1 v2 v3 d1 d3 * x
      + get_delta2 f1 f2 f3 v1 v2 v3 d1 d3 * x ^ 2 + get_delta3 f1 f2 f3 v1 v2 v3 d1 d3 * x ^ 3
      + get_delta4 f1 f2 f3 v1 v2 v3 d1 d3 * x ^ 4
    p f1 = v1 ∧ p f2 = v2 ∧ p f3 = v3 ∧ HasDerivAt p d1 f1 ∧ HasDerivAt p d3 f3 := by
  intro p
  have hd : ∀ x, HasDerivAt p (get_delta1 f1 f2 f3 v1 v2 v3 d1 d3
      + 2 * get_delta2 f1 f2 f3 v1 v2 v3 d1 d3 * x + 3 * get_delta3 f1 f2 f3 v1 v2 v3 d1 d3 * x ^ 2
      + 4 * get_delta4 f1 f2 f3 v1 v2 v3 d1 d3 * x ^ 3) x := by
    intro x
    have h := ((((hasDerivAt_const x (get_delta0 f1 f2 f3 v1 v2 v3 d1 d3)).add
      ((hasDerivAt_id x).const_mul (get_delta1 f1 f2 f3 v1 v2 v3 d1 d3))).add
      (((hasDerivAt_id x).pow 2).const_mul (get_delta2 f1 f2 f3 v1 v2 v3 d1 d3))).add
      (((hasDerivAt_id x).pow 3).const_mul (get_delta3 f1 f2 f3 v1 v2 v3 d1 d3))).add
      (((hasDerivAt_id x).pow 4).const_mul (get_delta4 f1 f2 f3 v1 v2 v3 d1 d3))
    have h' : HasDerivAt p _ x := h
    convert h' using 1
    simp only [id_eq]
    push_cast
    ring
  refine ⟨delta_value1 _ _ _ _ _ h12 h13 h23, delta_value2 _ _ _ _ _ h12 h13 h23,
    delta_value3 _ _ _ _ _ h12 h13 h23, ?_, ?_⟩
  · have := hd f1
    rwa [delta_slope1 _ _ _ _ _ h12 h13 h23] at this
  · have := hd f3
    rwa [delta_slope3 _ _ _ _ _ h12 h13 h23] at this

/-- ... and it is the only quartic doing so. -/
theorem C24_unique (f1 f2 f3 v1 v2 v3 d1 d3 c0 c1 c2 c3 c4 : ℝ) (h12 : f1 ≠ f2) (h13 : f1 ≠ f3) (h23 : f2 ≠ f3)
    (a1 : c0 + c1 * f1 + c2 * f1 ^ 2 + c3 * f1 ^ 3 + c4 * f1 ^ 4 = v1)
    (a2 : c0 + c1 * f2 + c2 * f2 ^ 2 + c3 * f2 ^ 3 + c4 * f2 ^ 4 = v2)
    (a3 : c0 + c1 * f3 + c2 * f3 ^ 2 + c3 * f3 ^ 3 + c4 * f3 ^ 4 = v3)
    (b1 : c1 + 2 * c2 * f1 + 3 * c3 * f1 ^ 2 + 4 * c4 * f1 ^ 3 = d1)
    (b3 : c1 + 2 * c2 * f3 + 3 * c3 * f3 ^ 2 + 4 * c4 * f3 ^ 3 = d3) :
    c0 = get_delta0 f1 f2 f3 v1 v2 v3 d1 d3 ∧ c1 = get_delta1 f1 f2 f3 v1 v2 v3 d1 d3 ∧
    c2 = get_delta2 f1 f2 f3 v1 v2 v3 d1 d3 ∧ c3 = get_delta3 f1 f2 f3 v1 v2 v3 d1 d3 ∧
    c4 = get_delta4 f1 f2 f3 v1 v2 v3 d1 d3 := by
  have := quartic_zero (e0 := c0 - get_delta0 f1 f2 f3 v1 v2 v3 d1 d3) (e1 := c1 - get_delta1 f1 f2 f3 v1 v2 v3 d1 d3)
    (e2 := c2 - get_delta2 f1 f2 f3 v1 v2 v3 d1 d3) (e3 := c3 - get_delta3 f1 f2 f3 v1 v2 v3 d1 d3)
    (e4 := c4 - get_delta4 f1 f2 f3 v1 v2 v3 d1 d3) h12 h13 h23
    (by linear_combination a1 - delta_value1 v1 v2 v3 d1 d3 h12 h13 h23)
    (by linear_combination a2 - delta_value2 v1 v2 v3 d1 d3 h12 h13 h23)
    (by linear_combination a3 - delta_value3 v1 v2 v3 d1 d3 h12 h13 h23)
    (by linear_combination b1 - delta_slope1 v1 v2 v3 d1 d3 h12 h13 h23)
    (by linear_combination b3 - delta_slope3 v1 v2 v3 d1 d3 h12 h13 h23)
  obtain ⟨e0, e1, e2, e3, e4⟩ := this
  exact ⟨sub_eq_zero.1 e0, sub_eq_zero.1 e1, sub_eq_zero.1 e2, sub_eq_zero.1 e3, sub_eq_zero.1 e4⟩

/-- witness: three distinct nodes -/
example : (1 : ℝ) ≠ 2 ∧ (1 : ℝ) ≠ 3 ∧ (2 : ℝ) ≠ 3 := by norm_num

/-! ### C25 -/

lemma PhenomD.get_IIb_Amp_eq_lor (x : ℝ) (theta : Theta) (coeffs : Fin 19 → ℝ) (f_RD f_damp : ℝ) :
    get_IIb_Amp x theta coeffs f_RD f_damp =
      lor (coeffs 4) (coeffs 5) (f_damp * (theta.m1 * gt + theta.m2 * gt) * coeffs 6)
        (x - f_RD * (theta.m1 * gt + theta.m2 * gt)) := rfl

/-- For `0 < gamma2 < 1` the transition frequency `f4` is a stationary point of the merger-ringdown amplitude, which
    increases from its other stationary point up to `f4` and decreases ever after. -/
theorem C25_peak (q : QNM) (theta : Theta) (h1 : 0 < theta.m1) (h2 : 0 < theta.m2) (coeffs : Fin 19 → ℝ)
    (hg1 : 0 < coeffs 4) (hg2 : 0 < coeffs 5) (hg2' : coeffs 5 < 1) (hg3 : 0 < coeffs 6) (tf : TransFreqs)
    (htf : tf = get_transition_frequencies q theta (coeffs 5) (coeffs 6)) (hd : 0 < tf.f_damp)
    (hpos : tf.f_damp * coeffs 6 * (1 - Real.sqrt (1 - coeffs 5 ^ 2)) / coeffs 5 ≤ tf.f_RD) :
    let A : ℝ → ℝ := fun f => get_IIb_Amp (f * ((theta.m1 + theta.m2) * gt)) theta coeffs tf.f_RD tf.f_damp
    let f_other : ℝ := tf.f_RD - tf.f_damp * coeffs 6 * (1 + Real.sqrt (1 - coeffs 5 ^ 2)) / coeffs 5
    HasDerivAt A 0 tf.f4 ∧ f_other < tf.f4 ∧ StrictMonoOn A (Icc f_other tf.f4) ∧ StrictAntiOn A (Ici tf.f4) := by
  intro A f_other
  have hk : 0 < theta.m1 * gt + theta.m2 * gt := by have := gt_pos; positivity
  have ek : (theta.m1 + theta.m2) * gt = theta.m1 * gt + theta.m2 * gt := by ring
  set k := theta.m1 * gt + theta.m2 * gt with hkdef
  set g := coeffs 5 with hg
  set w := tf.f_damp * k * coeffs 6 with hw
  have hwpos : 0 < w := by positivity
  set s := Real.sqrt (1 - g ^ 2) with hs
  have hs2 : s ^ 2 = 1 - g ^ 2 := Real.sq_sqrt (by nlinarith)
  have hspos : 0 < s := Real.sqrt_pos.2 (by nlinarith)
  have hs1 : s < 1 := by nlinarith
  have hf4 : tf.f4 = tf.f_RD + tf.f_damp * (-1 + s) * coeffs 6 / g := by
    have e : tf.f4 = |tf.f_RD + tf.f_damp * (-1 + s) * coeffs 6 / g| := by
      conv_lhs => rw [htf]
      have er : tf.f_RD = (get_fRD_fdamp q theta.m1 theta.m2 theta.chi1 theta.chi2).1 := by rw [htf]; rfl
      have ed : tf.f_damp = (get_fRD_fdamp q theta.m1 theta.m2 theta.chi1 theta.chi2).2 := by rw [htf]; rfl
      simp only [get_transition_frequencies]
      rw [if_neg (by simpa using hg2'), er, ed]
    rw [e, abs_of_nonneg]
    have : tf.f_damp * (-1 + s) * coeffs 6 / g = -(tf.f_damp * coeffs 6 * (1 - s) / g) := by ring
    rw [this]; linarith
  have hA : ∀ f, A f = lor (coeffs 4) g w (f * k - tf.f_RD * k) := by
    intro f
    show get_IIb_Amp (f * ((theta.m1 + theta.m2) * gt)) theta coeffs tf.f_RD tf.f_damp = _
    rw [get_IIb_Amp_eq_lor, ek]
  have hu4 : tf.f4 * k - tf.f_RD * k = w * (-1 + s) / g := by rw [hf4, hw]; ring
  have huo : f_other * k - tf.f_RD * k = -(w * (1 + s) / g) := by
    show (tf.f_RD - tf.f_damp * coeffs 6 * (1 + s) / g) * k - tf.f_RD * k = _
    rw [hw]; ring
  have ho : f_other < tf.f4 := by
    rw [hf4]
    show tf.f_RD - tf.f_damp * coeffs 6 * (1 + s) / g < _
    have : 0 < tf.f_damp * coeffs 6 * s / g := by positivity
    have e : tf.f_RD + tf.f_damp * (-1 + s) * coeffs 6 / g - (tf.f_RD - tf.f_damp * coeffs 6 * (1 + s) / g) =
      2 * (tf.f_damp * coeffs 6 * s / g) := by ring
    linarith
  have mono : StrictMono fun f : ℝ => f * k - tf.f_RD * k := fun a b hab => by
    have := mul_lt_mul_of_pos_right hab hk
    simp only; linarith
  have factor : ∀ u, g * u ^ 2 + 2 * w * u + g * w ^ 2 =
      g * (u - w * (-1 + s) / g) * (u + w * (1 + s) / g) := fun u => quad_factor hg2 hs2
  have hlt : -(w * (1 + s) / g) < w * (-1 + s) / g := by
    rw [← hu4, ← huo]; exact mono ho
  refine ⟨?_, ho, ?_, ?_⟩
  · have h := lor_deriv (g1 := coeffs 4) (g2 := g) hwpos (tf.f4 * k - tf.f_RD * k)
    rw [factor, hu4, sub_self, mul_zero, zero_mul, mul_zero, neg_zero, ← hu4] at h
    have hin : HasDerivAt (fun f : ℝ => f * k - tf.f_RD * k) k tf.f4 := by
      simpa using ((hasDerivAt_id tf.f4).mul_const k).sub_const (tf.f_RD * k)
    have h' := h.comp tf.f4 hin
    rw [zero_mul] at h'
    exact h'.congr_of_eventuallyEq (Filter.Eventually.of_forall hA)
  · have key : StrictMonoOn (lor (coeffs 4) g w) (Icc (-(w * (1 + s) / g)) (w * (-1 + s) / g)) := by
      refine lor_mono_on hg1 hwpos (convex_Icc _ _) fun u hu => ?_
      rw [interior_Icc] at hu
      rw [factor]
      have a1 : u - w * (-1 + s) / g < 0 := by linarith [hu.2]
      have a2 : 0 < u + w * (1 + s) / g := by linarith [hu.1]
      have := mul_neg_of_pos_of_neg hg2 a1
      exact mul_neg_of_neg_of_pos this a2
    intro a ha b hb hab
    rw [hA, hA]
    refine key ⟨?_, ?_⟩ ⟨?_, ?_⟩ (mono hab)
    · rw [← huo]; exact mono.monotone ha.1
    · rw [← hu4]; exact mono.monotone ha.2
    · rw [← huo]; exact mono.monotone hb.1
    · rw [← hu4]; exact mono.monotone hb.2
  · have key : StrictAntiOn (lor (coeffs 4) g w) (Ici (w * (-1 + s) / g)) := by
      refine lor_anti_on hg1 hwpos (convex_Ici _) fun u hu => ?_
      rw [interior_Ici] at hu
      rw [factor]
      have a1 : 0 < u - w * (-1 + s) / g := by linarith [mem_Ioi.1 hu]
      have a2 : 0 < u + w * (1 + s) / g := by linarith [mem_Ioi.1 hu]
      positivity
    intro a ha b hb hab
    rw [hA, hA]
    refine key ?_ ?_ (mono hab)
    · rw [mem_Ici, ← hu4]; exact mono.monotone ha
    · rw [mem_Ici, ← hu4]; exact mono.monotone hb

/-- For `gamma2 ≥ 1` the merger-ringdown amplitude has no peak: it decreases on the whole axis;
    `f4 = |f_RD - f_damp gamma3/gamma2|`. -/
theorem C25_no_peak (q : QNM) (theta : Theta) (h1 : 0 < theta.m1) (h2 : 0 < theta.m2) (coeffs : Fin 19 → ℝ)
    (hg1 : 0 < coeffs 4) (hg2 : 1 ≤ coeffs 5) (hg3 : 0 < coeffs 6) (tf : TransFreqs)
    (htf : tf = get_transition_frequencies q theta (coeffs 5) (coeffs 6)) (hd : 0 < tf.f_damp) :
    StrictAnti (fun f => get_IIb_Amp (f * ((theta.m1 + theta.m2) * gt)) theta coeffs tf.f_RD tf.f_damp) ∧
    tf.f4 = |tf.f_RD - tf.f_damp * coeffs 6 / coeffs 5| := by
  have hk : 0 < theta.m1 * gt + theta.m2 * gt := by have := gt_pos; positivity
  have ek : (theta.m1 + theta.m2) * gt = theta.m1 * gt + theta.m2 * gt := by ring
  refine ⟨fun a b hab => ?_, ?_⟩
  · simp only [ek, get_IIb_Amp_eq_lor]
    refine lor_anti hg1 (by positivity) hg2 ?_
    have := mul_lt_mul_of_pos_right hab hk
    linarith
  · conv_lhs => rw [htf]
    have er : tf.f_RD = (get_fRD_fdamp q theta.m1 theta.m2 theta.chi1 theta.chi2).1 := by rw [htf]; rfl
    have ed : tf.f_damp = (get_fRD_fdamp q theta.m1 theta.m2 theta.chi1 theta.chi2).2 := by rw [htf]; rfl
    simp only [get_transition_frequencies]
    rw [if_pos hg2, er, ed]
    congr 1
    ring

/-! ### C26 -/

lemma PhenomD.mul_bound {b s B : ℝ} (hB : |b| ≤ B) (hs : |s| ≤ 1) : -B ≤ b * s ∧ b * s ≤ B := by
  have h : |b * s| ≤ B := by
    rw [abs_mul]
    have := abs_nonneg b
    have := abs_nonneg s
    nlinarith
  exact abs_le.1 h

lemma PhenomD.frac_bound {a p r : ℝ} (a0 : 0 < a) (a1 : a < 0.051) (p0 : -0.14 ≤ p) (p1 : p ≤ 0.14) (r0 : -0.75 ≤ r) :
    0 < a * (1 + p) / (1 + r) ∧ a * (1 + p) / (1 + r) < 1 / 4 := by
  have h1 : 0 < 1 + r := by linarith
  refine ⟨div_pos (mul_pos a0 (by linarith)) h1, ?_⟩
  rw [div_lt_iff₀ h1]
  have : a * (1 + p) < 0.051 * 1.2 := mul_lt_mul'' a1 (by linarith) a0.le (by linarith)
  linarith

/-- radiated energy fraction for all mass ratios and effective spins in [-1,1] -/
lemma PhenomD.Erad_s_bounds {eta s : ℝ} (h0 : 0 < eta) (h4 : eta ≤ 1 / 4) (hs : |s| ≤ 1) :
    0 < EradRational0815_s eta s ∧ EradRational0815_s eta s < 1 / 4 := by
  have e2 : eta * eta ≤ 1 / 16 := by nlinarith
  have e2' : 0 < eta * eta := by positivity
  have e3 : eta * eta * eta ≤ 1 / 64 := by nlinarith
  have e3' : 0 < eta * eta * eta := by positivity
  have e3'' : eta * eta * eta ≤ 1 / 4 * (eta * eta) := by nlinarith
  have e4 : eta * eta * eta * eta ≤ 1 / 4 * (eta * eta * eta) := by nlinarith
  have e4' : 0 < eta * eta * eta * eta := by positivity
  unfold EradRational0815_s
  simp only
  have hb := mul_bound (b := -0.0030302335878845507 - 2.0066110851351073 * eta + 7.7050567802399215 * (eta * eta))
    (B := 0.14) (abs_le.2 ⟨by nlinarith [sq_nonneg (eta - 0.1302)], by nlinarith⟩) hs
  have hc := mul_bound (b := -0.6714403054720589 - 1.4756929437702908 * eta + 7.304676214885011 * (eta * eta))
    (B := 0.75) (abs_le.2 ⟨by nlinarith [sq_nonneg (eta - 0.101)], by nlinarith⟩) hs
  exact frac_bound (by linarith) (by linarith) hb.1 hb.2 hc.1

theorem C26_radiated_energy (eta chi1 chi2 : ℝ) (h0 : 0 < eta) (h4 : eta ≤ 1 / 4) (h1 : |chi1| ≤ 1) (h2 : |chi2| ≤ 1) :
    0 < EradRational0815 eta chi1 chi2 ∧ EradRational0815 eta chi1 chi2 < 1 / 4 := by
  unfold EradRational0815
  simp only
  refine Erad_s_bounds h0 h4 ?_
  set a := 0.5 * (1 + Real.sqrt (1 - 4 * eta)) * (0.5 * (1 + Real.sqrt (1 - 4 * eta))) with ha
  set b := 0.5 * (1 - Real.sqrt (1 - 4 * eta)) * (0.5 * (1 - Real.sqrt (1 - 4 * eta))) with hb
  have hs : 0 ≤ Real.sqrt (1 - 4 * eta) := Real.sqrt_nonneg _
  have a0 : 0 < a := by rw [ha]; positivity
  have b0 : 0 ≤ b := by rw [hb]; exact mul_self_nonneg _
  obtain ⟨p1, p2⟩ := abs_le.1 h1
  obtain ⟨q1, q2⟩ := abs_le.1 h2
  rw [abs_le, le_div_iff₀ (by linarith), div_le_iff₀ (by linarith)]
  constructor <;> nlinarith

lemma PhenomD.eta_s_range {m1 m2 : ℝ} (h1 : 0 < m1) (h2 : 0 < m2) :
    0 < m1 * gt * (m2 * gt) / (m1 * gt + m2 * gt) ^ 2 ∧ m1 * gt * (m2 * gt) / (m1 * gt + m2 * gt) ^ 2 ≤ 1 / 4 := by
  have hg := gt_pos
  refine ⟨by positivity, ?_⟩
  rw [div_le_div_iff₀ (by positivity) (by norm_num)]
  nlinarith [sq_nonneg (m1 * gt - m2 * gt)]

/-- Ringdown and damping frequencies are positive, and the ringdown frequency is at least `lo/M` when every entry of
    the ringdown table is at least `lo`. -/
theorem C26_ringdown (q : QNM) (heps : 0 ≤ q.eps) (hgrid : GoodGrid q.eps q.a) (lR : q.fRD.length = q.a.length)
    (lD : q.fdamp.length = q.a.length) (lo : ℝ) (hlo : 0 < lo) (hR : ∀ y ∈ q.fRD, lo ≤ y) (hD : ∀ y ∈ q.fdamp, 0 < y)
    (m1 m2 chi1 chi2 : ℝ) (h1 : 0 < m1) (h2 : 0 < m2) (hc1 : |chi1| ≤ 1) (hc2 : |chi2| ≤ 1) :
    lo / ((m1 + m2) * gt) < (get_fRD_fdamp q m1 m2 chi1 chi2).1 ∧ 0 < (get_fRD_fdamp q m1 m2 chi1 chi2).2 := by
  have hg := gt_pos
  obtain ⟨e0, e4⟩ := eta_s_range h1 h2
  obtain ⟨E0, E1⟩ := C26_radiated_energy _ chi1 chi2 e0 e4 hc1 hc2
  unfold get_fRD_fdamp
  simp only
  set E := EradRational0815 (m1 * gt * (m2 * gt) / (m1 * gt + m2 * gt) ^ 2) chi1 chi2 with hE
  set a := FinalSpin0815_s (m1 * gt * (m2 * gt) / (m1 * gt + m2 * gt) ^ 2)
    ((chi1 * (m1 * gt) ^ 2 + chi2 * (m2 * gt) ^ 2) / (m1 * gt + m2 * gt) ^ 2) with ha
  have ek : (m1 + m2) * gt = m1 * gt + m2 * gt := by ring
  have hk : 0 < m1 * gt + m2 * gt := by positivity
  constructor
  · rw [ek]
    refine div_lt_div_of_pos_right ?_ hk
    have hmem : ∀ k, k < q.a.length → lo ≤ q.fRD.getD k 0 ∧ q.fRD.getD k 0 ≤ (q.fRD.foldr max 0) := by
      intro k hk
      have hm : q.fRD.getD k 0 ∈ q.fRD := Jnp.getD_mem (by omega)
      refine ⟨hR _ hm, ?_⟩
      have : ∀ (l : List ℝ), ∀ y ∈ l, y ≤ l.foldr max 0 := by
        intro l
        induction l with
        | nil => simp
        | cons a l ih =>
          intro y hy
          simp only [List.foldr_cons]
          rcases List.mem_cons.1 hy with rfl | hy
          · exact le_max_left _ _
          · exact (ih y hy).trans (le_max_right _ _)
      exact this _ _ hm
    have h := (interp_mem_range heps hgrid a q.fRD hmem).1
    rw [lt_div_iff₀ (by linarith)]
    nlinarith
  · refine div_pos (div_pos ?_ (by linarith)) hk
    rcases hgrid.cover a with h | h | ⟨k, hk, h1, h2⟩
    · rw [interp_left heps hgrid _ h]
      exact hD _ (Jnp.getD_mem (by have := hgrid.1; omega))
    · rw [interp_right heps hgrid _ h]
      exact hD _ (Jnp.getD_mem (by have := hgrid.1; omega))
    · have hb := (interp_cell_between heps hgrid q.fdamp hk h1 h2).1
      refine lt_of_lt_of_le (lt_min ?_ ?_) hb
      · exact hD _ (Jnp.getD_mem (by omega))
      · exact hD _ (Jnp.getD_mem (by omega))

/-- The phase regions are ordered, `0 < f1 < f2`, whenever all tabulated ringdown frequencies are at least 0.036
    (the smallest number in the shipped table is 0.0464). -/
theorem C26_phase_regions_ordered (q : QNM) (heps : 0 ≤ q.eps) (hgrid : GoodGrid q.eps q.a)
    (lR : q.fRD.length = q.a.length) (lD : q.fdamp.length = q.a.length) (hR : ∀ y ∈ q.fRD, 0.036 ≤ y)
    (hD : ∀ y ∈ q.fdamp, 0 < y)
    (theta : Theta) (h1 : 0 < theta.m1) (h2 : 0 < theta.m2) (hc1 : |theta.chi1| ≤ 1) (hc2 : |theta.chi2| ≤ 1)
    (gamma2 gamma3 : ℝ) :
    let tf := get_transition_frequencies q theta gamma2 gamma3
    0 < tf.f1 ∧ tf.f1 < tf.f2 ∧ tf.f1 = 0.018 / ((theta.m1 + theta.m2) * gt) ∧ 2 * tf.f2 = tf.f_RD ∧
      0 < tf.f_RD ∧ 0 < tf.f_damp := by
  intro tf
  have hg := gt_pos
  obtain ⟨r1, r2⟩ := C26_ringdown q heps hgrid lR lD 0.036 (by norm_num) hR hD theta.m1 theta.m2 theta.chi1 theta.chi2
    h1 h2 hc1 hc2
  have hk : 0 < (theta.m1 + theta.m2) * gt := by positivity
  have hpos : 0 < 0.018 / ((theta.m1 + theta.m2) * gt) := by positivity
  have e : (0.036 : ℝ) / ((theta.m1 + theta.m2) * gt) = 2 * (0.018 / ((theta.m1 + theta.m2) * gt)) := by ring
  rw [e] at r1
  refine ⟨hpos, ?_, rfl, ?_, ?_, r2⟩
  · show 0.018 / ((theta.m1 + theta.m2) * gt) < 0.5 * (get_fRD_fdamp q theta.m1 theta.m2 theta.chi1 theta.chi2).1
    linarith
  · show 2 * (0.5 * (get_fRD_fdamp q theta.m1 theta.m2 theta.chi1 theta.chi2).1) =
      (get_fRD_fdamp q theta.m1 theta.m2 theta.chi1 theta.chi2).1
    ring
  · show 0 < (get_fRD_fdamp q theta.m1 theta.m2 theta.chi1 theta.chi2).1
    linarith

/-- witness: a two-point QNM table -/
example : ∃ q : QNM, 0 ≤ q.eps ∧ GoodGrid q.eps q.a ∧ q.fRD.length = q.a.length ∧ q.fdamp.length = q.a.length ∧
    (∀ y ∈ q.fRD, 0.036 ≤ y) ∧ (∀ y ∈ q.fdamp, 0 < y) :=
  ⟨⟨1e-7, [-1, 1], [0.0464014, 0.1579619], [0.0141952, 0.0002908]⟩, by norm_num,
    ⟨by simp, fun k hk => by
      have : k = 0 := by simp at hk; omega
      subst this; norm_num⟩, rfl, rfl, by norm_num, by norm_num⟩

/-- The phase of the waveform itself (its own fit coefficients and transition frequencies) is C¹ on `f > 0`
    for all physical parameters. -/
theorem C28_phase_C1_physical (q : QNM) (heps : 0 ≤ q.eps) (hgrid : GoodGrid q.eps q.a)
    (lR : q.fRD.length = q.a.length) (lD : q.fdamp.length = q.a.length) (hR : ∀ y ∈ q.fRD, 0.036 ≤ y)
    (hD : ∀ y ∈ q.fdamp, 0 < y)
    (theta : Theta) (h1 : 0 < theta.m1) (h2 : 0 < theta.m2) (hc1 : |theta.chi1| ≤ 1) (hc2 : |theta.chi2| ≤ 1) :
    ContDiffOn ℝ 1 (fun f => Phase f theta (get_coeffs theta)
      (get_transition_frequencies q theta (get_coeffs theta 5) (get_coeffs theta 6))) (Ioi 0) := by
  obtain ⟨a, b, _, _, _, d⟩ := C26_phase_regions_ordered q heps hgrid lR lD hR hD theta h1 h2 hc1 hc2
    (get_coeffs theta 5) (get_coeffs theta 6)
  exact C28_phase_C1 theta h1 h2 _ _ d a b

end Ripple

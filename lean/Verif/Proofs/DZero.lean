/-
  Zeros of the PhenomD amplitude for nearly extremal remnants: the damping frequency tends to its (small) value at spin 1, the
  Lorentzian's peak becomes high and narrow, and the collocation quartic undershoots.
-/
import Verif.Proofs.DPos
import Verif.Proofs.QNMSpline

namespace Ripple
namespace PhenomD
open Real Set Scipy QNMData

/-! ### the damping lookup near spin 1 -/

/-- the last cell of the damping spline -/
lemma splinedamp_last {v : ℝ} (h1 : 0.999 ≤ v) (h2 : v ≤ 1) :
    CubicSpline knots valdamp v ≤ 0.0002908 + 2 * (1 - v) := by
  have k0 : knots.getD 1001 0 = 0.999 := by rw [knots_getD 1001 (by norm_num)]; norm_num [X]
  have k1 : knots.getD (1001 + 1) 0 = 1 := knot_last
  have c0 := abs_le.1 (slopes_close fdamp_length mdamp_length resdamp enddamp 1001 (by omega))
  have c1 := abs_le.1 (slopes_close fdamp_length mdamp_length resdamp enddamp 1002 (by omega))
  have m0 : QNMCert.mdamp.getD 1001 0 = -89734 := by decide +kernel
  have m1 : QNMCert.mdamp.getD 1002 0 = -198727 := by decide +kernel
  have y0 := valdamp_getD 1001
  have y1 := valdamp_getD 1002
  rw [show fdamp.getD 1001 0 = 167620 by decide +kernel] at y0
  rw [show fdamp.getD 1002 0 = 29080 by decide +kernel] at y1
  rw [m0] at c0
  rw [m1] at c1
  change -20 ≤ slopes knots valdamp 1001 * 100000 - _ ∧ slopes knots valdamp 1001 * 100000 - _ ≤ 20 at c0
  change -20 ≤ slopes knots valdamp 1002 * 100000 - _ ∧ slopes knots valdamp 1002 * 100000 - _ ≤ 20 at c1
  rw [spline_cell _ 1001 (by norm_num) (by rw [k0]; exact h1) (by rw [k1]; exact h2), piece_eq, dx1001, k0, y0]
  rw [show (1001 + 1 : ℕ) = 1002 from rfl, y1]
  generalize slopes knots valdamp 1001 = s0 at *
  generalize slopes knots valdamp 1002 = s1 at *
  unfold herm
  push_cast at *
  norm_num at h1 c0 c1 ⊢
  obtain ⟨t, ht⟩ : ∃ t, t = (1 - v) * 1000 := ⟨_, rfl⟩
  have hv : v = 1 - t / 1000 := by rw [ht]; ring
  have t0 : 0 ≤ t := by rw [ht]; linarith
  have t1 : t ≤ 1 := by rw [ht]; linarith
  subst hv
  have b1 : 0 ≤ t * (1 - t) ^ 2 * (s1 * 100000 + 198747) :=
    mul_nonneg (mul_nonneg t0 (sq_nonneg _)) (by linarith only [c1])
  have b0 : 0 ≤ t ^ 2 * (1 - t) * (-89714 - s0 * 100000) := 
    mul_nonneg (mul_nonneg (sq_nonneg _) (by linarith only [t1])) (by linarith only [c0])
  have b2 : 0 ≤ t ^ 2 * (1 - t) := mul_nonneg (sq_nonneg _) (by linarith only [t1])
  have b3 : 0 ≤ t ^ 2 := sq_nonneg _
  ring_nf at b0 b1 b2 b3 ⊢
  linarith only [b0, b1, b2, b3, t0]

/-! ### numerical bounds at the corner of extreme mass ratio and spin -/

lemma dz_spin (d x y e S a : ℝ) (hd : 0.9996 ≤ d ∧ d ≤ 1) (hx : 0.9999 ≤ x ∧ x ≤ 1) (hy : -1 ≤ y ∧ y ≤ 1)
    (he : e = (1 - d ^ 2) / 4) (hS : S = ((1 + d) ^ 2 * x + (1 - d) ^ 2 * y) / 4) (ha : a = S + e * spinR e S) : 0 < a - 0.99974 := by
  rw [spinR_horner] at ha
  affine_bnb [hd, hx, hy] [he, hS, ha]

lemma dz_E (d x y e S E : ℝ) (hd : 0.9996 ≤ d ∧ d ≤ 1) (hx : 0.9999 ≤ x ∧ x ≤ 1) (hy : -1 ≤ y ∧ y ≤ 1)
    (he : e = (1 - d ^ 2) / 4) (hS : S = ((1 + d) ^ 2 * x + (1 - d) ^ 2 * y) / (2 * (1 + d ^ 2))) (hE : E = e * eradD e S) :
    0 < 0.0001 - E := by
  unfold eradD at hE
  affine_bnb [hd, hx, hy] [he, hS, hE]

lemma dz_V (d x y u p e X A2 A3 A4 A5 A6 V : ℝ) (hd : 0.9996 ≤ d ∧ d ≤ 1) (hx : 0.9999 ≤ x ∧ x ≤ 1) (hy : -1 ≤ y ∧ y ≤ 1)
    (hu : 0.241014 ≤ u ∧ u ≤ 0.241015) (hp : 1.46459 ≤ p ∧ p ≤ 1.4646) (he : e = (1 - d ^ 2) / 4)
    (hX : X = (x + y) / 2 * (1 - 76 * e / 113) + d * ((x - y) / 2) - 1) (h2 : A2 = cA2 e p) (h3 : A3 = cA3 e d x y p)
    (h4 : A4 = cA4 e d x y p) (h5 : A5 = cA5 e d x y p) (h6 : A6 = cA6 e d x y p)
    (hV : V = 1 + u ^ 2 * (A2 + u * (A3 + u * (A4 + u * (A5 + u * (A6 + u * cV e X u)))))) : 0 < 0.94 - V := by
  unfold cA2 at h2
  unfold cA3 at h3
  unfold cA4 at h4
  unfold cA5 at h5
  unfold cA6 at h6
  unfold cV at hV
  affine_bnb [hd, hx, hy, hu, hp] [he, hX, h2, h3, h4, h5, h6, hV]

lemma dz_V' (d x y u p e X A2 A3 A4 A5 A6 V : ℝ) (hd : 0.9996 ≤ d ∧ d ≤ 1) (hx : 0.9999 ≤ x ∧ x ≤ 1) (hy : -1 ≤ y ∧ y ≤ 1)
    (hu : 0.241014 ≤ u ∧ u ≤ 0.241015) (hp : 1.46459 ≤ p ∧ p ≤ 1.4646) (he : e = (1 - d ^ 2) / 4)
    (hX : X = (x + y) / 2 * (1 - 76 * e / 113) + d * ((x - y) / 2) - 1) (h2 : A2 = cA2 e p) (h3 : A3 = cA3 e d x y p)
    (h4 : A4 = cA4 e d x y p) (h5 : A5 = cA5 e d x y p) (h6 : A6 = cA6 e d x y p)
    (hV : V = 1 + u ^ 2 * (A2 + u * (A3 + u * (A4 + u * (A5 + u * (A6 + u * cV e X u)))))) : 0 < V - 0.9 := by
  unfold cA2 at h2
  unfold cA3 at h3
  unfold cA4 at h4
  unfold cA5 at h5
  unfold cA6 at h6
  unfold cV at hV
  affine_bnb [hd, hx, hy, hu, hp] [he, hX, h2, h3, h4, h5, h6, hV]

lemma dz_Q (d x y u p e X A2 A3 A4 A5 A6 Q : ℝ) (hd : 0.9996 ≤ d ∧ d ≤ 1) (hx : 0.9999 ≤ x ∧ x ≤ 1) (hy : -1 ≤ y ∧ y ≤ 1)
    (hu : 0.241014 ≤ u ∧ u ≤ 0.241015) (hp : 1.46459 ≤ p ∧ p ≤ 1.4646) (he : e = (1 - d ^ 2) / 4)
    (hX : X = (x + y) / 2 * (1 - 76 * e / 113) + d * ((x - y) / 2) - 1) (h2 : A2 = cA2 e p) (h3 : A3 = cA3 e d x y p)
    (h4 : A4 = cA4 e d x y p) (h5 : A5 = cA5 e d x y p) (h6 : A6 = cA6 e d x y p)
    (hQ : Q = u ^ 2 * (2 * A2 + u * (3 * A3 + u * (4 * A4 + u * (5 * A5 + u * (6 * A6 + u * cQ e X u)))))) : 0 < -Q := by
  unfold cA2 at h2
  unfold cA3 at h3
  unfold cA4 at h4
  unfold cA5 at h5
  unfold cA6 at h6
  unfold cQ at hQ
  affine_bnb [hd, hx, hy, hu, hp] [he, hX, h2, h3, h4, h5, h6, hQ]

lemma dz_m (d x y e X : ℝ) (hd : 0.9996 ≤ d ∧ d ≤ 1) (hx : 0.9999 ≤ x ∧ x ≤ 1) (hy : -1 ≤ y ∧ y ≤ 1) (he : e = (1 - d ^ 2) / 4)
    (hX : X = (x + y) / 2 * (1 - 76 * e / 113) + d * ((x - y) / 2) - 1) : 0 < 0.82 - cMid e X := by
  unfold cMid
  affine_bnb [hd, hx, hy] [he, hX]

lemma dz_g1 (d x y e X : ℝ) (hd : 0.9996 ≤ d ∧ d ≤ 1) (hx : 0.9999 ≤ x ∧ x ≤ 1) (hy : -1 ≤ y ∧ y ≤ 1) (he : e = (1 - d ^ 2) / 4)
    (hX : X = (x + y) / 2 * (1 - 76 * e / 113) + d * ((x - y) / 2) - 1) : 0 < cG1 e X - 0.0069 := by
  unfold cG1
  affine_bnb [hd, hx, hy] [he, hX]

lemma dz_g2 (d x y e X : ℝ) (hd : 0.9996 ≤ d ∧ d ≤ 1) (hx : 0.9999 ≤ x ∧ x ≤ 1) (hy : -1 ≤ y ∧ y ≤ 1) (he : e = (1 - d ^ 2) / 4)
    (hX : X = (x + y) / 2 * (1 - 76 * e / 113) + d * ((x - y) / 2) - 1) : 0 < cG2 e X - 1 := by
  unfold cG2
  affine_bnb [hd, hx, hy] [he, hX]

lemma dz_g3 (d x y e X : ℝ) (hd : 0.9996 ≤ d ∧ d ≤ 1) (hx : 0.9999 ≤ x ∧ x ≤ 1) (hy : -1 ≤ y ∧ y ≤ 1) (he : e = (1 - d ^ 2) / 4)
    (hX : X = (x + y) / 2 * (1 - 76 * e / 113) + d * ((x - y) / 2) - 1) : 0 < 1.309 - cG3 e X := by
  unfold cG3
  affine_bnb [hd, hx, hy] [he, hX]

/-! ### the quartic -/

/-- the connection quartic at the position `s` between the outer nodes -/
lemma iia_hermite {q : QNM} (hq : q.Shipped) {theta : Theta} (h : theta.Physical) {tf : TransFreqs}
    (htf : tf = get_transition_frequencies q theta (get_coeffs theta 5) (get_coeffs theta 6)) {u : ℝ} (u0 : 0 < u)
    (u3 : u ^ 3 = 0.014) (s : ℝ) :
    get_IIa_Amp ((tf.f3 + s * (tf.f4 - tf.f3)) * Ms theta) theta (get_coeffs theta) tf.f3 tf.f4 tf.f_RD tf.f_damp =
      (1 - s) ^ 2 * (1 - 2 * s) * (insV theta u * (1 + 4 * s) + (tf.f4 * Ms theta - 0.014) * (insQ theta u / 0.042) * s)
        + 16 * s ^ 2 * (1 - s) ^ 2 * get_coeffs theta 3
        + s ^ 2 * (2 * s - 1) *
          (lor (get_coeffs theta 4) (get_coeffs theta 5) (tf.f_damp * Ms theta * get_coeffs theta 6)
              (tf.f4 * Ms theta - tf.f_RD * Ms theta) * (5 - 4 * s)
            - (tf.f4 * Ms theta - 0.014) *
              deriv (lor (get_coeffs theta 4) (get_coeffs theta 5) (tf.f_damp * Ms theta * get_coeffs theta 6))
                (tf.f4 * Ms theta - tf.f_RD * Ms theta) * (1 - s)) := by
  have ord := C74_amplitude_regions_ordered _ hq theta h
  simp only at ord
  rw [← htf] at ord
  obtain ⟨p3, p34, p4R, pR, pd, pg1, pg2, pg3⟩ := ord
  have hM : 0 < Ms theta := by
    have := h.m1_pos
    have := h.m2_pos
    have := gt_pos
    unfold Ms; positivity
  have e3 : tf.f3 * Ms theta = 0.014 := by
    rw [← Ms_eq] at hM ⊢
    rw [show tf.f3 = 0.014 / ((theta.m1 + theta.m2) * gt) by rw [htf]; rfl, div_mul_cancel₀ _ hM.ne']
  have hV := ins_eq theta u0.le
  have hQ := ins_slope theta u0
  rw [u3] at hV hQ
  have ek : theta.m1 * gt + theta.m2 * gt = Ms theta := rfl
  have hdl : deriv (fun y => get_IIb_Amp y theta (get_coeffs theta) tf.f_RD tf.f_damp) (tf.f4 * Ms theta) =
      deriv (lor (get_coeffs theta 4) (get_coeffs theta 5) (tf.f_damp * Ms theta * get_coeffs theta 6))
        (tf.f4 * Ms theta - tf.f_RD * Ms theta) := by
    have : (fun y => get_IIb_Amp y theta (get_coeffs theta) tf.f_RD tf.f_damp) =
        fun y => lor (get_coeffs theta 4) (get_coeffs theta 5) (tf.f_damp * Ms theta * get_coeffs theta 6)
          (y - tf.f_RD * Ms theta) := by
      funext y
      rw [get_IIb_Amp_eq_lor, ek]
    rw [this, deriv_comp_sub_const]
  have hvl : get_IIb_Amp (tf.f4 * Ms theta) theta (get_coeffs theta) tf.f_RD tf.f_damp =
      lor (get_coeffs theta 4) (get_coeffs theta 5) (tf.f_damp * Ms theta * get_coeffs theta 6)
        (tf.f4 * Ms theta - tf.f_RD * Ms theta) := by
    rw [get_IIb_Amp_eq_lor, ek]
  have h43 : tf.f3 * Ms theta < tf.f4 * Ms theta := mul_lt_mul_of_pos_right p34 hM
  rw [e3] at h43
  have hd1 : deriv (fun y => get_inspiral_Amp y theta (get_coeffs theta)) 0.014 = insQ theta u / 0.042 := by
    rw [eq_div_iff (by norm_num)]; linarith
  unfold get_IIa_Amp
  simp only [ek]
  rw [hdl, hvl, show (tf.f3 + tf.f4) / 2 * Ms theta = (tf.f3 * Ms theta + tf.f4 * Ms theta) / 2 by ring,
    show (tf.f3 + s * (tf.f4 - tf.f3)) * Ms theta = tf.f3 * Ms theta + s * (tf.f4 * Ms theta - tf.f3 * Ms theta) by ring, e3, hV,
    hd1, delta_hermite h43]

lemma quartic_sign {V Q vm L K hh : ℝ} (zV : 0 < 0.94 - V) (zV' : 0 < V - 0.9) (zQ : 0 < -Q) (zm : 0 < 0.82 - vm) (hL : 8 ≤ L)
    (hK : 0 ≤ K) (hh0 : 0 ≤ hh) :
    0 < (1 - 0) ^ 2 * (1 - 2 * 0) * (V * (1 + 4 * 0) + hh * (Q / 0.042) * 0) + 16 * 0 ^ 2 * (1 - 0) ^ 2 * vm
      + 0 ^ 2 * (2 * 0 - 1) * (L * (5 - 4 * 0) - hh * -K * (1 - 0)) ∧
    (1 - 1 / 4) ^ 2 * (1 - 2 * (1 / 4)) * (V * (1 + 4 * (1 / 4)) + hh * (Q / 0.042) * (1 / 4))
      + 16 * (1 / 4) ^ 2 * (1 - 1 / 4) ^ 2 * vm
      + (1 / 4) ^ 2 * (2 * (1 / 4) - 1) * (L * (5 - 4 * (1 / 4)) - hh * -K * (1 - 1 / 4)) < 0 := by
  have k1 : 0 ≤ hh * K := mul_nonneg hh0 hK
  have k2 : 0 ≤ hh * -Q := mul_nonneg hh0 zQ.le
  norm_num at zV zV' zm ⊢
  constructor
  · linarith only [zV']
  · linarith only [k1, k2, zV, zm, hL]

/-- at extreme mass ratio and primary spin the quartic is positive at its left end and negative at a quarter -/
lemma iia_sign {eps : ℝ} (he : 0 ≤ eps) (he' : eps < 4e-6) {theta : Theta} (h : theta.Physical) (hm : 5000 * theta.m2 ≤ theta.m1)
    (hx : 0.9999 ≤ theta.chi1) {tf : TransFreqs}
    (htf : tf = get_transition_frequencies (qnmTable eps) theta (get_coeffs theta 5) (get_coeffs theta 6)) :
    0 < get_IIa_Amp ((tf.f3 + 0 * (tf.f4 - tf.f3)) * Ms theta) theta (get_coeffs theta) tf.f3 tf.f4 tf.f_RD tf.f_damp ∧
    get_IIa_Amp ((tf.f3 + 1 / 4 * (tf.f4 - tf.f3)) * Ms theta) theta (get_coeffs theta) tf.f3 tf.f4 tf.f_RD tf.f_damp < 0 := by
  have hq := C93_shipped he he'
  have m1 := h.m1_pos
  have m2 := h.m2_pos
  have hg := gt_pos
  have hmm : theta.m2 ≤ theta.m1 := by linarith
  have ord := C74_amplitude_regions_ordered _ hq theta h
  simp only at ord
  rw [← htf] at ord
  obtain ⟨p3, p34, p4R, pR, pd, pg1, pg2, pg3⟩ := ord
  have hf4 := f4_pos hq h htf
  have hM : 0 < Ms theta := by unfold Ms; positivity
  obtain ⟨d0, d1, hd2⟩ := XAS.dOf_range h
  obtain ⟨e1, e2, -⟩ := XAS.dOf_spec h
  have f2 : 1 - XAS.dOf theta = 2 * (theta.m2 / (theta.m1 + theta.m2)) := by
    unfold Spec.muL at e2; rw [min_eq_right hmm] at e2; linarith
  have f1 : 1 + XAS.dOf theta = 2 * (theta.m1 / (theta.m1 + theta.m2)) := by
    unfold Spec.muH at e1; rw [max_eq_left hmm] at e1; linarith
  have hd : 0.9996 ≤ XAS.dOf theta ∧ XAS.dOf theta ≤ 1 := by
    refine ⟨?_, d1.le⟩
    have : theta.m2 / (theta.m1 + theta.m2) ≤ 1 / 5001 := by
      rw [div_le_div_iff₀ (by positivity) (by norm_num)]; linarith
    norm_num
    linarith
  have hxx : 0.9999 ≤ theta.chi1 ∧ theta.chi1 ≤ 1 := ⟨hx, (abs_le.1 h.chi1_le).2⟩
  have hyy := abs_le.1 h.chi2_le
  have hee : XAS.etaOf theta = (1 - XAS.dOf theta ^ 2) / 4 := hd2
  have hS : spinOf theta = ((1 + XAS.dOf theta) ^ 2 * theta.chi1 + (1 - XAS.dOf theta) ^ 2 * theta.chi2) / 4 := by
    rw [f1, f2]
    unfold spinOf
    field_simp
    ring
  have hSt : XAS.stotOf theta = ((1 + XAS.dOf theta) ^ 2 * theta.chi1 + (1 - XAS.dOf theta) ^ 2 * theta.chi2) /
      (2 * (1 + XAS.dOf theta ^ 2)) := by
    unfold XAS.stotOf
    rw [div_eq_div_iff (by positivity) (by positivity)]
    ring
  have e0 := (XAS.etaOf_range h).1
  have ha : FinalSpin0815_s (etaOf theta) (spinOf theta) =
      spinOf theta + XAS.etaOf theta * spinR (XAS.etaOf theta) (spinOf theta) := by
    rw [← etas_eq, finalSpin_eq e0.ne']
  have eE : EradRational0815 (etaOf theta) theta.chi1 theta.chi2 = XAS.etaOf theta * eradD (XAS.etaOf theta) (XAS.stotOf theta) := by
    rw [← eradD_eq, ← etas_eq]
    unfold EradRational0815 XAS.stotOf XAS.dOf
    simp only [pow_two]
  have zs := dz_spin _ _ _ _ _ _ hd hxx hyy hee hS ha
  have zE := dz_E _ _ _ _ _ _ hd hxx hyy hee hSt eE
  have ht := (C94_spin_range theta h).2
  have er := etaOf_range h
  have hE0 := (C26_radiated_energy (etaOf theta) theta.chi1 theta.chi2 er.1 er.2 h.chi1_le h.chi2_le).1
  -- damping frequency
  have hdamp : tf.f_damp * Ms theta ≤ 0.000852 := by
    have eD : tf.f_damp = (get_fRD_fdamp (qnmTable eps) theta.m1 theta.m2 theta.chi1 theta.chi2).2 := by rw [htf]; rfl
    have e3 : theta.m1 * gt * (theta.m2 * gt) / (theta.m1 * gt + theta.m2 * gt) ^ 2 = etaOf theta := etas_eq theta
    have e4 : (theta.chi1 * (theta.m1 * gt) ^ 2 + theta.chi2 * (theta.m2 * gt) ^ 2) / (theta.m1 * gt + theta.m2 * gt) ^ 2 =
        spinOf theta := by
      unfold spinOf; field_simp
    have e5 : Ms theta ≠ 0 := hM.ne'
    have e6 : theta.m1 * gt + theta.m2 * gt = Ms theta := rfl
    rw [eD]
    unfold get_fRD_fdamp
    simp only [e3, e4, table_eps]
    rw [e6, div_mul_cancel₀ _ e5, table_a, table_damp]
    norm_num at zs zE
    have l := lookup_close he he' (fun a b c => splinedamp_lip a b c)
      (v := FinalSpin0815_s (etaOf theta) (spinOf theta)) (by linarith) ht.le
    have b := splinedamp_last (v := FinalSpin0815_s (etaOf theta) (spinOf theta)) (by norm_num; linarith) ht.le
    have l2 := (abs_le.1 l).2
    rw [div_le_iff₀ (by linarith)]
    norm_num at l2 b ⊢
    linarith
  obtain ⟨u, u1, u2, u3⟩ := exists_u3
  have hu : 0.241014 ≤ u ∧ u ≤ 0.241015 := ⟨u1, u2⟩
  have u0 : 0 < u := by norm_num at u1; linarith
  have zV := dz_V _ _ _ _ _ _ _ _ _ _ _ _ _ hd hxx hyy hu pOf_range hee rfl rfl rfl rfl rfl rfl (show insV theta u = _ from rfl)
  have zV' := dz_V' _ _ _ _ _ _ _ _ _ _ _ _ _ hd hxx hyy hu pOf_range hee rfl rfl rfl rfl rfl rfl
    (show insV theta u = _ from rfl)
  have zQ := dz_Q _ _ _ _ _ _ _ _ _ _ _ _ _ hd hxx hyy hu pOf_range hee rfl rfl rfl rfl rfl rfl (show insQ theta u = _ from rfl)
  have zm := dz_m _ _ _ _ _ hd hxx hyy hee rfl
  have z1 := dz_g1 _ _ _ _ _ hd hxx hyy hee rfl
  have z2 := dz_g2 _ _ _ _ _ hd hxx hyy hee rfl
  have z3 := dz_g3 _ _ _ _ _ hd hxx hyy hee rfl
  change 0 < 0.82 - cMid (XAS.etaOf theta) (xOf theta) at zm
  change 0 < cG1 (XAS.etaOf theta) (xOf theta) - 0.0069 at z1
  change 0 < cG2 (XAS.etaOf theta) (xOf theta) - 1 at z2
  change 0 < 1.309 - cG3 (XAS.etaOf theta) (xOf theta) at z3
  rw [← coeff3] at zm
  rw [← coeff4] at z1
  rw [← coeff5] at z2
  rw [← coeff6] at z3
  rw [iia_hermite hq h htf u0 u3, iia_hermite hq h htf u0 u3]
  have h43 : tf.f3 * Ms theta < tf.f4 * Ms theta := mul_lt_mul_of_pos_right p34 hM
  have e3 : tf.f3 * Ms theta = 0.014 := by
    have hM' := hM
    rw [← Ms_eq] at hM' ⊢
    rw [show tf.f3 = 0.014 / ((theta.m1 + theta.m2) * gt) by rw [htf]; rfl, div_mul_cancel₀ _ hM'.ne']
  rw [e3] at h43
  have hw0 : 0 < tf.f_damp * Ms theta * get_coeffs theta 6 := mul_pos (mul_pos pd hM) pg3
  have hw1 : tf.f_damp * Ms theta * get_coeffs theta 6 ≤ 0.000852 * 1.309 :=
    mul_le_mul hdamp (by linarith) pg3.le (by norm_num)
  generalize tf.f_damp * Ms theta * get_coeffs theta 6 = w at *
  have hg5 : 1 ≤ get_coeffs theta 5 := by linarith
  have hu' : tf.f4 * Ms theta - tf.f_RD * Ms theta = -w / get_coeffs theta 5 := by
    rcases hf4 with ⟨-, k⟩ | ⟨k, -⟩
    · exact k
    · linarith
  rw [hu', (lor_deriv hw0 _).deriv]
  generalize get_coeffs theta 5 = g at *
  generalize get_coeffs theta 4 = g1 at *
  generalize get_coeffs theta 3 = vm at *
  have eu : -(-w / g) * g / w = 1 := by field_simp
  have ed : (-w / g) ^ 2 + w ^ 2 = w ^ 2 * (1 + g ^ 2) / g ^ 2 := by field_simp
  have eq : g * (-w / g) ^ 2 + 2 * w * (-w / g) + g * w ^ 2 = w ^ 2 * (g ^ 2 - 1) / g := by field_simp; ring
  have eL : lor g1 g w (-w / g) = exp 1 * g1 * g ^ 2 / (w * (1 + g ^ 2)) := by
    unfold lor
    rw [eu, ed]
    field_simp
  have g2 : 0 ≤ g ^ 2 - 1 := sub_nonneg.2 (one_le_pow₀ hg5)
  rw [eu, ed, eq]
  have hL : 8 ≤ lor g1 g w (-w / g) := by
    rw [eL, le_div_iff₀ (by positivity)]
    have hexp := exp_one_gt_d9
    have k1 : 2.718 * 0.0069 ≤ exp 1 * g1 := mul_le_mul (by norm_num at hexp ⊢; linarith) (by linarith) (by norm_num) (exp_pos _).le
    have k2 : 8 * (w * (1 + g ^ 2)) ≤ 8 * (0.000852 * 1.309 * (1 + g ^ 2)) := by
      have := mul_le_mul_of_nonneg_right hw1 (show 0 ≤ 1 + g ^ 2 by positivity)
      linarith
    have k3 : 2.718 * 0.0069 * g ^ 2 ≤ exp 1 * g1 * g ^ 2 := mul_le_mul_of_nonneg_right k1 (sq_nonneg _)
    norm_num at k2 k3 ⊢
    linarith
  have hDn : 0 ≤ g1 * exp 1 / (w ^ 2 * (1 + g ^ 2) / g ^ 2) ^ 2 * (w ^ 2 * (g ^ 2 - 1) / g) := by positivity
  exact quartic_sign zV zV' zQ zm hL hDn (by linarith only [h43])

/-- between the transition frequencies the amplitude is a positive multiple of the quartic -/
lemma ampAt_mid {theta : Theta} (h : theta.Physical) {tf : TransFreqs} {coeffs : Fin 19 → ℝ} {D thr x : ℝ} (hD : 0 < D)
    (h0 : 0 < x) (h3 : tf.f3 < x) (h4 : x < tf.f4) : ∃ k, 0 < k ∧
      ampAt theta coeffs tf D thr x = k * get_IIa_Amp (x * Ms theta) theta coeffs tf.f3 tf.f4 tf.f_RD tf.f_damp := by
  have m1 := h.m1_pos
  have m2 := h.m2_pos
  have hg := gt_pos
  have hM : 0 < Ms theta := by unfold Ms; positivity
  have hmp := m_per_Mpc_pos
  have hC := C_pos
  have hp := PI_pos
  have hA : 0 < get_Amp0 (x * Ms theta) (theta.m1 * gt * (theta.m2 * gt) / Ms theta ^ 2) := by
    unfold get_Amp0
    simp only
    positivity
  refine ⟨get_Amp0 (x * Ms theta) (theta.m1 * gt * (theta.m2 * gt) / Ms theta ^ 2) * (2 * Real.sqrt (5 / (64 * PI))) * Ms theta ^ 2
    / (D * m_per_Mpc / C), by positivity, ?_⟩
  unfold ampAt
  rw [Jnp.heaviside_neg (x := tf.f3 - x) (by linarith), Jnp.heaviside_pos (x := x - tf.f3) (by linarith),
    Jnp.heaviside_pos (x := tf.f4 - x) (by linarith), Jnp.heaviside_neg (x := x - tf.f4) (by linarith)]
  ring

/-- at extreme mass ratio and primary spin the amplitude is negative at one frequency below the ringdown frequency and zero at
    another -/
lemma ampAt_zero {eps : ℝ} (he : 0 ≤ eps) (he' : eps < 4e-6) {theta : Theta} (h : theta.Physical)
    (hm : 5000 * theta.m2 ≤ theta.m1) (hx : 0.9999 ≤ theta.chi1) {D : ℝ} (hD : 0 < D) :
    ∃ f f', 0 < f ∧ f < f' ∧ f' < 0.2 / ((theta.m1 + theta.m2) * gt) ∧ ∀ thr,
      ampAt theta (get_coeffs theta)
        (get_transition_frequencies (qnmTable eps) theta (get_coeffs theta 5) (get_coeffs theta 6)) D thr f = 0 ∧
      ampAt theta (get_coeffs theta)
        (get_transition_frequencies (qnmTable eps) theta (get_coeffs theta 5) (get_coeffs theta 6)) D thr f' < 0 := by
  obtain ⟨tf, htf⟩ : ∃ tf, tf = get_transition_frequencies (qnmTable eps) theta (get_coeffs theta 5) (get_coeffs theta 6) :=
    ⟨_, rfl⟩
  rw [← htf]
  have hq := C93_shipped he he'
  have ord := C74_amplitude_regions_ordered _ hq theta h
  simp only at ord
  rw [← htf] at ord
  obtain ⟨p3, p34, p4R, pR, -⟩ := ord
  obtain ⟨s0, s1⟩ := iia_sign he he' h hm hx htf
  obtain ⟨u, u1, -, u3⟩ := exists_u3
  have u0 : 0 < u := by norm_num at u1; linarith
  have hc : ContinuousOn (fun s => get_IIa_Amp ((tf.f3 + s * (tf.f4 - tf.f3)) * Ms theta) theta (get_coeffs theta) tf.f3 tf.f4
      tf.f_RD tf.f_damp) (Icc 0 (1 / 4)) := by
    refine Continuous.continuousOn ?_
    simp only [iia_hermite hq h htf u0 u3]
    fun_prop
  obtain ⟨s, hs, hz⟩ := intermediate_value_Icc' (show (0 : ℝ) ≤ 1 / 4 by norm_num) hc
    (show (0 : ℝ) ∈ Icc _ _ from ⟨s1.le, s0.le⟩)
  simp only at hz
  have hs0 : 0 < s := by
    rcases hs.1.lt_or_eq with k | k
    · exact k
    · rw [← k] at hz; exact absurd hz s0.ne'
  have hs1 : s < 1 / 4 := by
    rcases hs.2.lt_or_eq with k | k
    · exact k
    · rw [k] at hz; exact absurd hz s1.ne
  have hgap : 0 < tf.f4 - tf.f3 := by linarith
  have g1 : 0 < s * (tf.f4 - tf.f3) := mul_pos hs0 hgap
  have g2 : s * (tf.f4 - tf.f3) < 1 / 4 * (tf.f4 - tf.f3) := mul_lt_mul_of_pos_right hs1 hgap
  refine ⟨tf.f3 + s * (tf.f4 - tf.f3), tf.f3 + 1 / 4 * (tf.f4 - tf.f3), by linarith, by linarith, by linarith, fun thr => ⟨?_, ?_⟩⟩
  · obtain ⟨k, -, hk⟩ := ampAt_mid (coeffs := get_coeffs theta) (tf := tf) (thr := thr)
      (x := tf.f3 + s * (tf.f4 - tf.f3)) h hD (by linarith) (by linarith) (by linarith)
    rw [hk, hz, mul_zero]
  · obtain ⟨k, k0, hk⟩ := ampAt_mid (coeffs := get_coeffs theta) (tf := tf) (thr := thr)
      (x := tf.f3 + 1 / 4 * (tf.f4 - tf.f3)) h hD (by linarith) (by linarith) (by linarith)
    rw [hk]
    exact mul_neg_of_pos_of_neg k0 s1

end PhenomD
end Ripple

/-
  Rounding errors of the overlap and the match: the integral and the quotient.
-/
import Verif.Proofs.RoundedAccuracy

namespace Ripple
namespace Fp

noncomputable section

variable {F : Fmt} {N n : ℕ} {S : Fin n → ℝ} {e : ℝ}

lemma conj_ofC (z : ℂ) : conj (ofC z) = ofC (star z) := by
  simp [conj, ofC]

lemma re_im_le (a b : ℂ) : |a.re * b.re| + |a.im * b.im| ≤ ‖a‖ * ‖b‖ ∧ |a.re * b.im| + |a.im * b.re| ≤ ‖a‖ * ‖b‖ := by
  have ha := Complex.sq_norm a
  have hb := Complex.sq_norm b
  rw [Complex.normSq_apply] at ha hb
  have h0 := mul_nonneg (norm_nonneg a) (norm_nonneg b)
  have key : ∀ p q r s : ℝ, ‖a‖ ^ 2 = p * p + q * q → ‖b‖ ^ 2 = r * r + s * s → |p * r| + |q * s| ≤ ‖a‖ * ‖b‖ := by
    intro p q r s h1 h2
    refine abs_le_of_sq_le_sq' ?_ h0 |>.2
    rw [abs_mul, abs_mul, mul_pow, h1, h2]
    nlinarith only [sq_nonneg (|p| * |s| - |q| * |r|), abs_mul_abs_self p, abs_mul_abs_self q, abs_mul_abs_self r, abs_mul_abs_self s,
      mul_self_nonneg p, mul_self_nonneg q]
  exact ⟨key _ _ _ _ ha hb, key _ _ _ _ ha (by rw [hb]; ring)⟩

/-- a real part of a product -/
lemma part_near (hF : F.Roomy) {p q r s V : ℝ} (hu : F.u ≤ e) (he : e ≤ 1 / 1000) (hV : |p * r| + |q * s| ≤ V)
    (hmax : 2 * V + 16 * F.minNormal < 2 ^ F.emax) :
    FNear F (F.sub (F.mul (.fin p) (.fin r)) (F.mul (.fin q) (.fin s))) (p * r - q * s) (2.5 * e * V + 6.5 * F.minNormal)
      ∧ FNear F (F.add (F.mul (.fin p) (.fin r)) (F.mul (.fin q) (.fin s))) (p * r + q * s) (2.5 * e * V + 6.5 * F.minNormal) := by
  have hm := minNormal_pos (F := F)
  have hu0 := u_pos (F := F)
  have a1 := abs_nonneg (p * r)
  have a2 := abs_nonneg (q * s)
  have hV0 : 0 ≤ V := by linarith
  have huV : F.u * V ≤ e * V := mul_le_mul_of_nonneg_right hu hV0
  have heV : e * V ≤ 1 / 1000 * V := mul_le_mul_of_nonneg_right he hV0
  have h1 : F.u * |p * r| + F.u * |q * s| ≤ F.u * V := by
    rw [← mul_add]; exact mul_le_mul_of_nonneg_left hV hu0.le
  have g1 := mul_nonneg hu0.le a1
  have g2 := mul_nonneg hu0.le a2
  obtain ⟨x, hx, -, hx2⟩ := ofReal_fnear hF.toWF (x := p * r) (v := p * r) (e := 0) (V := |p * r|)
    (g := F.u * |p * r| + 2 * F.minNormal) (by simp) le_rfl (by linarith) (by linarith)
  obtain ⟨y, hy, -, hy2⟩ := ofReal_fnear hF.toWF (x := q * s) (v := q * s) (e := 0) (V := |q * s|)
    (g := F.u * |q * s| + 2 * F.minNormal) (by simp) le_rfl (by linarith) (by linarith)
  have ex : F.mul (.fin p) (.fin r) = .fin x := hx
  have ey : F.mul (.fin q) (.fin s) = .fin y := hy
  rw [ex, ey]
  have hg : F.u * V + 4 * F.minNormal + F.u * (V + (F.u * V + 4 * F.minNormal)) + 2 * F.minNormal
      ≤ 2.5 * e * V + 6.5 * F.minNormal := by
    have k1 : F.u * (F.u * V) ≤ 1 / 1000 * (e * V) := by
      have := mul_le_mul (hu.trans he) huV (by positivity) (by norm_num); linarith
    have k2 : F.u * F.minNormal ≤ 1 / 1000 * F.minNormal := mul_le_mul_of_nonneg_right (hu.trans he) hm.le
    have k3 : 0 ≤ e * V := (mul_nonneg hu0.le hV0).trans huV
    nlinarith only [k1, k2, k3, huV, hm]
  refine ⟨?_, ?_⟩
  · unfold Fmt.sub
    rw [XR.sub_fin]
    refine ofReal_fnear hF.toWF (e := F.u * V + 4 * F.minNormal) (V := V) ?_ ?_ hg (by linarith)
    · have := abs_sub (x - p * r) (y - q * s)
      rw [show x - y - (p * r - q * s) = x - p * r - (y - q * s) by ring]; linarith
    · exact (abs_sub _ _).trans hV
  · unfold Fmt.add
    rw [XR.add_fin]
    refine ofReal_fnear hF.toWF (e := F.u * V + 4 * F.minNormal) (V := V) ?_ ?_ hg (by linarith)
    · have := abs_add_le (x - p * r) (y - q * s)
      rw [show x + y - (p * r + q * s) = x - p * r + (y - q * s) by ring]; linarith
    · exact (abs_add_le _ _).trans hV

lemma cmul_near (hF : F.Roomy) {a b : ℂ} {V : ℝ} (hu : F.u ≤ e) (he : e ≤ 1 / 1000) (hV : ‖a‖ * ‖b‖ ≤ V)
    (hmax : 2 * V + 16 * F.minNormal < 2 ^ F.emax) :
    CNear F (cmul F (ofC a) (ofC b)) (a * b) (5 * e * V + 13 * F.minNormal) := by
  have hp := re_im_le a b
  obtain ⟨x, hx, fx, hx2⟩ := (part_near hF hu he (hp.1.trans hV) hmax).1
  obtain ⟨y, hy, fy, hy2⟩ := (part_near hF hu he (hp.2.trans hV) hmax).2
  refine ⟨⟨x, y⟩, ?_, ⟨fx, fy⟩, ?_⟩
  · unfold cmul ofC
    exact Prod.ext hx hy
  · refine (Complex.norm_le_abs_re_add_abs_im _).trans ?_
    rw [Complex.sub_re, Complex.sub_im, Complex.mul_re, Complex.mul_im]
    show |x - _| + |y - _| ≤ _
    linarith

/-- weighted product of the moduli -/
lemma sum_prod_le (hS : ∀ i, 0 < S i) (h1 h2 : Fin n → ℂ) :
    ∑ i, ‖h1 i‖ * ‖h2 i‖ / S i ≤ √(normSq S h1) * √(normSq S h2) := by
  have := cauchy_schwarz (w := fun i => 1 / S i) (fun i => (one_div_pos.2 (hS i)).le) (fun i => (‖h1 i‖ : ℂ)) (fun i => (‖h2 i‖ : ℂ))
  have e1 : ∑ i, star (‖h1 i‖ : ℂ) * (‖h2 i‖ : ℂ) * ((1 / S i : ℝ) : ℂ) = ((∑ i, ‖h1 i‖ * ‖h2 i‖ / S i : ℝ) : ℂ) := by
    push_cast
    refine Finset.sum_congr rfl fun i _ => ?_
    rw [RCLike.star_def, Complex.conj_ofReal]; ring
  rw [e1, Complex.norm_real, Real.norm_eq_abs] at this
  refine (le_abs_self _).trans (this.trans (le_of_eq ?_))
  unfold normSq
  congr 2 <;> exact Finset.sum_congr rfl fun i _ => by rw [Complex.norm_real, norm_norm, mul_one_div]

section pair
variable {h1 h2 : Fin n → ℂ}

lemma prod_high (w1 : WellScaled F N S h1) (w2 : WellScaled F N S h2) (i : Fin n) : 8 * (‖h1 i‖ * ‖h2 i‖) < 2 ^ F.emax := by
  have a := w1.high i
  have b := w2.high i
  nlinarith only [a, b, sq_nonneg (‖h1 i‖ - ‖h2 i‖)]

lemma prod_near (hF : F.Roomy) (hu : F.u ≤ e) (he : e ≤ 1 / 1000) (w1 : WellScaled F N S h1) (w2 : WellScaled F N S h2) (i : Fin n) :
    CNear F (cmul F (conj (ofC (h1 i))) (ofC (h2 i))) (star (h1 i) * h2 i)
      (5 * e * (‖h1 i‖ * ‖h2 i‖) + 13 * F.minNormal) := by
  have h8 := prod_high w1 w2 i
  have hM := hF.max_big
  have hm4 := hF.toWF.min_le
  rw [conj_ofC]
  refine cmul_near hF hu he (by rw [norm_star]) ?_
  linarith

/-- division of a product by the noise -/
lemma cdiv_near (lib : Lib F) (hl : lib.Accurate e) (hSf : ∀ i, F.IsFloat (S i)) {P Z K L : ℝ} (z : Sizes F N n S P e) {x : XR × XR} {v : ℂ}
    (i : Fin n) (hx : CNear F x v (K * e * Z + L * F.minNormal)) (hv : ‖v‖ ≤ Z) (hZ : 0 ≤ Z) (hZP : Z / S i ≤ P)
    (hK2 : K ≤ 20) (hL : 0 ≤ L) (hL2 : L ≤ 40) :
    CNear F (lib.cdiv x (.fin (S i))) (v / (S i : ℂ)) ((K + 2) * e * (Z / S i) + (L + 1) * (F.minNormal / S i) + 4 * F.minNormal) := by
  obtain ⟨a, rfl, fa, ha⟩ := hx
  have hs := z.Spos i
  have hm := minNormal_pos (F := F)
  have e0 := z.e0
  have he := z.e1
  have hna : ‖a‖ ≤ Z + (K * e * Z + L * F.minNormal) := by
    have := norm_le_norm_add_norm_sub' a v; linarith
  have hZs : 0 ≤ Z / S i := by positivity
  have hms : 0 ≤ F.minNormal / S i := by positivity
  have hna' : ‖a‖ / S i ≤ Z / S i + (K * e * (Z / S i) + L * (F.minNormal / S i)) := by
    rw [div_le_iff₀ hs]; refine hna.trans (le_of_eq ?_); field_simp
  have k1 := z.mS_le i
  have k2 := z.uQ
  have k3 := z.eQ
  have k4 := z.high
  have k5 : K * e ≤ 20 * (1 / 1000) := mul_le_mul hK2 he e0.le (by norm_num)
  have k6 : K * e * (Z / S i) ≤ 20 * (1 / 1000) * (Z / S i) := mul_le_mul_of_nonneg_right k5 hZs
  have k7 : L * (F.minNormal / S i) ≤ 40 * (F.minNormal / S i) := mul_le_mul_of_nonneg_right hL2 hms
  have hP := z.Q0
  obtain ⟨w, hw, fw, hw2⟩ := hl.cdiv a (S i) fa (hSf i) hs (by nlinarith only [hna', k1, k2, k3, k4, k6, k7, hZP, hP])
  refine ⟨w, hw, fw, ?_⟩
  have hn : ‖a / (S i : ℂ) - v / (S i : ℂ)‖ ≤ K * e * (Z / S i) + L * (F.minNormal / S i) := by
    rw [← sub_div, norm_div, Complex.norm_real, Real.norm_eq_abs, abs_of_pos hs, div_le_iff₀ hs]
    refine ha.trans (le_of_eq ?_); field_simp
  have htri : ‖w - v / (S i : ℂ)‖ ≤ ‖w - a / (S i : ℂ)‖ + ‖a / (S i : ℂ) - v / (S i : ℂ)‖ := norm_sub_le_norm_sub_add_norm_sub _ _ _
  have k8 := mul_le_mul_of_nonneg_left hna' e0.le
  have k9 : e * (K * e * (Z / S i)) ≤ e * (20 * (1 / 1000) * (Z / S i)) := mul_le_mul_of_nonneg_left k6 e0.le
  have k10 : e * (L * (F.minNormal / S i)) ≤ 1 / 1000 * (40 * (F.minNormal / S i)) :=
    mul_le_mul he k7 (by positivity) (by norm_num)
  have k11 := mul_nonneg e0.le hZs
  nlinarith only [hw2, hn, htri, k8, k9, k10, k11, hms]

/-- sum of the error terms -/
lemma err_sum {P K L : ℝ} (z : Sizes F N n S P e) (hK : 0 ≤ K) (hL : 0 ≤ L) {Z : Fin n → ℝ} (hZ : ∑ i, Z i / S i ≤ P) :
    ∑ i, (K * e * (Z i / S i) + L * (F.minNormal / S i) + 4 * F.minNormal) ≤ (K + L + 4) * (e * P) := by
  rw [Finset.sum_add_distrib, Finset.sum_add_distrib, ← Finset.mul_sum, ← Finset.mul_sum, Finset.sum_const, Finset.card_univ,
    Fintype.card_fin, nsmul_eq_mul]
  have k1 : ∑ i, F.minNormal / S i = F.minNormal * ∑ i, 1 / S i := by
    rw [Finset.mul_sum]; exact Finset.sum_congr rfl fun i _ => by ring
  rw [k1]
  have k3 := mul_le_mul_of_nonneg_left (z.mS.trans z.uQ) hL
  have k4 := z.mn.trans z.uQ
  have k5 := mul_le_mul_of_nonneg_left hZ (mul_nonneg hK z.e0.le)
  nlinarith only [k3, k4, k5]

lemma quot_near {P I : ℝ} (z : Sizes F N n S P e) {x p : XR} (hI0 : 0 ≤ I) (hI : I ≤ P) (hx : FNear F x I (105 * e * P))
    (hp : FNear F p P (66 * e * P)) : FNear F (F.div x p) (I / P) (200 * e) := by
  obtain ⟨a, rfl, -, ha⟩ := hx
  obtain ⟨b, rfl, -, hb⟩ := hp
  have hP := z.Q0
  have heP := z.eQ
  have e0 := z.e0
  have he := z.e1
  have hb2 := abs_le.1 hb
  have hbl : 0.934 * P ≤ b := by nlinarith only [hb2.1, heP]
  have hb0 : 0 < b := by nlinarith only [hbl, hP]
  unfold Fmt.div
  rw [XR.div_fin _ hb0.ne']
  have hq0 : 0 ≤ I / P := by positivity
  have hq1 : I / P ≤ 1 := by rw [div_le_one hP]; exact hI
  have hd : |a / b - I / P| ≤ 190 * e := by
    have : a / b - I / P = ((a - I) + (I / P) * (P - b)) / b := by field_simp; ring
    rw [this, abs_div, abs_of_pos hb0, div_le_iff₀ hb0]
    have h1 := abs_add_le (a - I) (I / P * (P - b))
    have h2 : |I / P * (P - b)| ≤ 1 * (66 * e * P) := by
      rw [abs_mul, abs_of_nonneg hq0, abs_sub_comm]
      exact mul_le_mul hq1 hb (abs_nonneg _) (by norm_num)
    have h3 := mul_le_mul_of_nonneg_left hbl e0.le
    have h4 := mul_pos e0 hP
    nlinarith only [ha, h1, h2, h3, h4]
  refine ofReal_fnear z.roomy.toWF (V := 1) hd (by rw [abs_of_nonneg hq0]; exact hq1) ?_ ?_
  · have h1 := mul_le_mul_of_nonneg_right z.ue (show 0 ≤ 1 + 190 * e by positivity)
    have h2 := z.roomy.toWF.min_le_u.trans z.ue
    nlinarith only [h1, h2, e0, he]
  · have := z.roomy.max_big; linarith

/-! ### the overlap -/

lemma overlap_near (lib : Lib F) (hl : lib.Accurate e) (hSf : ∀ i, F.IsFloat (S i)) (del_t : ℝ) (fs : Fin n → ℝ)
    (hph : lib.PhaseAccurate e fs del_t) (w1 : WellScaled F N S h1) (w2 : WellScaled F N S h2)
    (z1 : Sizes F N n S (normSq S h1) e) (z2 : Sizes F N n S (normSq S h2) e) :
    FNear F (get_phase_maximized_inner_product_arr F lib del_t fs (fun i => .fin (S i)) (fun i => ofC (h1 i)) (fun i => ofC (h2 i)))
      (‖∑ i, star (h1 i) * h2 i * tph (fs i) del_t / (S i : ℂ)‖ / (√(normSq S h1) * √(normSq S h2))) (200 * e) := by
  have z := z1.prod z2
  set P := √(normSq S h1) * √(normSq S h2) with hPdef
  have e0 := z.e0
  have he := z.e1
  have hP := z.Q0
  have heP := z.eQ
  have hM := z.roomy.max_big
  have hm := minNormal_pos (F := F)
  have hm4 := z.roomy.toWF.min_le
  have hZ := sum_prod_le (n := n) z.Spos h1 h2
  have hZi : ∀ i, 0 ≤ ‖h1 i‖ * ‖h2 i‖ := fun i => by positivity
  have hZP : ∀ i, ‖h1 i‖ * ‖h2 i‖ / S i ≤ P := fun i =>
    (Finset.single_le_sum (f := fun i => ‖h1 i‖ * ‖h2 i‖ / S i) (fun j _ => div_nonneg (hZi j) (z.Spos j).le)
      (Finset.mem_univ i)).trans hZ
  have hv : ∀ i, ‖star (h1 i) * h2 i * tph (fs i) del_t‖ = ‖h1 i‖ * ‖h2 i‖ := fun i => by
    rw [norm_mul, norm_mul, norm_star, norm_tph, mul_one]
  have hterm : ∀ i, CNear F (lib.cdiv (cmul F (cmul F (conj (ofC (h1 i))) (ofC (h2 i)))
        (.fin (lib.cis (fs i) del_t).1, .fin (lib.cis (fs i) del_t).2)) (.fin (S i)))
      (star (h1 i) * h2 i * tph (fs i) del_t / (S i : ℂ))
      (14 * e * (‖h1 i‖ * ‖h2 i‖ / S i) + 28 * (F.minNormal / S i) + 4 * F.minNormal) := by
    intro i
    set Z := ‖h1 i‖ * ‖h2 i‖ with hZdef
    have hZ0 : 0 ≤ Z := hZi i
    have h8 := prod_high w1 w2 i
    obtain ⟨a, ha, fa, ha2⟩ := prod_near z.roomy z.ue he w1 w2 i
    set c : ℂ := ⟨(lib.cis (fs i) del_t).1, (lib.cis (fs i) del_t).2⟩ with hc
    have hce : ‖c - tph (fs i) del_t‖ ≤ e := hph i
    have hcn : ‖c‖ ≤ 1 + e := by
      have := norm_le_norm_add_norm_sub' c (tph (fs i) del_t); rw [norm_tph] at this; linarith
    have hnv : ‖star (h1 i) * h2 i‖ = Z := by rw [norm_mul, norm_star]
    have han : ‖a‖ ≤ Z + (5 * e * Z + 13 * F.minNormal) := by
      have := norm_le_norm_add_norm_sub' a (star (h1 i) * h2 i); rw [hnv] at this; linarith
    have heZ : e * Z ≤ 1 / 1000 * Z := mul_le_mul_of_nonneg_right he hZ0
    have heZ0 : 0 ≤ e * Z := mul_nonneg e0.le hZ0
    have hem : e * F.minNormal ≤ 1 / 1000 * F.minNormal := mul_le_mul_of_nonneg_right he hm.le
    have hac : ‖a‖ * ‖c‖ ≤ 1.01 * Z + 14 * F.minNormal := by
      have := mul_le_mul han hcn (norm_nonneg _) ((norm_nonneg _).trans han)
      have k : e * (e * Z) ≤ e * (1 / 1000 * Z) := mul_le_mul_of_nonneg_left heZ e0.le
      nlinarith only [this, k, heZ, heZ0, hem, hZ0, hm]
    obtain ⟨b, hb, fb, hb2⟩ := cmul_near z.roomy (e := e) z.ue he hac (by linarith)
    have e1 : cmul F (cmul F (conj (ofC (h1 i))) (ofC (h2 i))) (.fin (lib.cis (fs i) del_t).1, .fin (lib.cis (fs i) del_t).2) = ofC b := by
      rw [ha, ← hb]; rfl
    rw [e1]
    have hfin : CNear F (ofC b) (star (h1 i) * h2 i * tph (fs i) del_t) (12 * e * Z + 27 * F.minNormal) := by
      refine ⟨b, rfl, fb, ?_⟩
      have t1 : b - star (h1 i) * h2 i * tph (fs i) del_t
          = (b - a * c) + (a - star (h1 i) * h2 i) * c + star (h1 i) * h2 i * (c - tph (fs i) del_t) := by ring
      rw [t1]
      have t2 := norm_add₃_le (a := b - a * c) (b := (a - star (h1 i) * h2 i) * c) (c := star (h1 i) * h2 i * (c - tph (fs i) del_t))
      have t3 : ‖(a - star (h1 i) * h2 i) * c‖ ≤ (5 * e * Z + 13 * F.minNormal) * (1 + e) := by
        rw [norm_mul]; exact mul_le_mul ha2 hcn (norm_nonneg _) ((norm_nonneg _).trans ha2)
      have t4 : ‖star (h1 i) * h2 i * (c - tph (fs i) del_t)‖ ≤ Z * e := by
        rw [norm_mul, hnv]; exact mul_le_mul_of_nonneg_left hce hZ0
      have k : e * (e * Z) ≤ 1 / 1000 * (e * Z) := mul_le_mul_of_nonneg_right he heZ0
      nlinarith only [t2, t3, t4, hb2, k, heZ0, hem, hm]
    have := cdiv_near lib hl hSf z i hfin (by rw [hv]) hZ0 (hZP i) (by norm_num) (by norm_num) (by norm_num)
    refine this.mono (le_of_eq ?_)
    ring
  choose t ht ft ht2 using hterm
  have herr : ∑ i, (14 * e * (‖h1 i‖ * ‖h2 i‖ / S i) + 28 * (F.minNormal / S i) + 4 * F.minNormal) ≤ 46 * e * P := by
    have := err_sum z (K := 14) (L := 28) (by norm_num) (by norm_num) hZ
    linarith
  set T : Fin n → ℂ := fun i => star (h1 i) * h2 i * tph (fs i) del_t / (S i : ℂ) with hT
  have hTn : ∀ i, ‖T i‖ = ‖h1 i‖ * ‖h2 i‖ / S i := fun i => by
    rw [hT]; beta_reduce
    rw [norm_div, hv, Complex.norm_real, Real.norm_eq_abs, abs_of_pos (z.Spos i)]
  have hsumT : ∑ i, ‖T i‖ ≤ P := by simp only [hTn]; exact hZ
  have k8 := z.high
  have hmax : 1.01 * (P + 46 * e * P + 2 * P) < 2 ^ F.emax := by nlinarith only [heP, k8, hP]
  have hre := sum_arr z.roomy.toWF z.nu1 lib (fun i => .fin (t i).re) (fun i => (T i).re) _ (fun i => ⟨_, rfl, (ft i).1,
    ((by rw [← Complex.sub_re]; exact Complex.abs_re_le_norm _) : |(t i).re - (T i).re| ≤ ‖t i - T i‖).trans (ht2 i)⟩) herr
    ((Finset.sum_le_sum fun i _ => Complex.abs_re_le_norm (T i)).trans hsumT) z.mn hmax
  have him := sum_arr z.roomy.toWF z.nu1 lib (fun i => .fin (t i).im) (fun i => (T i).im) _ (fun i => ⟨_, rfl, (ft i).2,
    ((by rw [← Complex.sub_im]; exact Complex.abs_im_le_norm _) : |(t i).im - (T i).im| ≤ ‖t i - T i‖).trans (ht2 i)⟩) herr
    ((Finset.sum_le_sum fun i _ => Complex.abs_im_le_norm (T i)).trans hsumT) z.mn hmax
  obtain ⟨p, hp, fp, hp2⟩ := hre
  obtain ⟨q, hq, fq, hq2⟩ := him
  have hI : ‖∑ i, T i‖ ≤ P := (norm_sum_le _ _).trans hsumT
  have hpq : ‖(⟨p, q⟩ : ℂ) - ∑ i, T i‖ ≤ 99 * e * P := by
    refine (Complex.norm_le_abs_re_add_abs_im _).trans ?_
    rw [Complex.sub_re, Complex.sub_im, Complex.re_sum, Complex.im_sum]
    show |p - _| + |q - _| ≤ _
    have k5 : n * F.u * (P + 46 * e * P + 2 * P) ≤ e * (P + 46 * e * P + 2 * P) :=
      mul_le_mul_of_nonneg_right z.nue (by positivity)
    have k6 : e * (e * P) ≤ e * (1 / 1000 * P) := mul_le_mul_of_nonneg_left heP e0.le
    have k7 := mul_pos e0 hP
    nlinarith only [hp2, hq2, k5, k6, k7]
  have hpqn : ‖(⟨p, q⟩ : ℂ)‖ ≤ P + 99 * e * P := by
    have := norm_le_norm_add_norm_sub' (⟨p, q⟩ : ℂ) (∑ i, T i); linarith
  obtain ⟨r, hr, fr, hr2⟩ := hl.cabs ⟨p, q⟩ ⟨fp, fq⟩ (by nlinarith only [hpqn, heP, k8, hP])
  have hint : FNear F (lib.cabs (ofC ⟨p, q⟩)) ‖∑ i, T i‖ (105 * e * P) := by
    refine ⟨r, hr, fr, ?_⟩
    have a1 : |r - ‖∑ i, T i‖| ≤ |r - ‖(⟨p, q⟩ : ℂ)‖| + |‖(⟨p, q⟩ : ℂ)‖ - ‖∑ i, T i‖| := abs_sub_le _ _ _
    have a2 := (abs_norm_sub_norm_le (⟨p, q⟩ : ℂ) (∑ i, T i)).trans hpq
    have a3 := mul_le_mul_of_nonneg_left hpqn e0.le
    have a4 : e * (e * P) ≤ e * (1 / 1000 * P) := mul_le_mul_of_nonneg_left heP e0.le
    have a5 := z.mQ.trans z.uQ
    have a6 := mul_pos e0 hP
    nlinarith only [a1, a2, a3, a4, a5, a6, hr2]
  have := quot_near z (norm_nonneg _) hI hint (norms_near lib hl w1 w2 z1 z2 z)
  unfold get_phase_maximized_inner_product_arr
  simp only [ht]
  have e2 : (lib.sum (List.ofFn fun i => (ofC (t i)).1), lib.sum (List.ofFn fun i => (ofC (t i)).2)) = ofC ⟨p, q⟩ :=
    Prod.ext hp hq
  rw [e2]
  exact this

/-! ### the match -/

/-- the largest of finitely many numbers near given values -/
lemma maxOf_near {N : ℕ} {x : Fin N → XR} {v : Fin N → ℝ} {g : ℝ} (hN : 0 < N) (hx : ∀ k, FNear F (x k) (v k) g) :
    FNear F (maxOf (List.ofFn x)) (⨆ k, v k) g := by
  choose a ha fa ha2 using hx
  have key : ∀ l : List XR, l ≠ [] → (∀ y ∈ l, ∃ k, y = .fin (a k)) →
      ∃ k, maxOf l = .fin (a k) ∧ ∀ j, .fin (a j) ∈ l → a j ≤ a k := by
    intro l
    induction l with
    | nil => intro h; exact absurd rfl h
    | cons y l ih =>
      intro _ hl
      obtain ⟨k, rfl⟩ := hl y (by simp)
      cases l with
      | nil =>
        refine ⟨k, rfl, fun j hj => ?_⟩
        rw [List.mem_singleton] at hj
        injection hj with hj
        exact hj.le
      | cons w l =>
        obtain ⟨k', h1, h2⟩ := ih (by simp) (fun y hy => hl y (List.mem_cons_of_mem _ hy))
        have e1 : maxOf (.fin (a k) :: w :: l) = fmax (.fin (a k)) (.fin (a k')) := by rw [maxOf, h1]
        by_cases hlt : a k < a k'
        · refine ⟨k', ?_, fun j hj => ?_⟩
          · rw [e1]; simp [fmax, XR.lt, hlt]
          · rcases List.mem_cons.1 hj with hj | hj
            · injection hj with hj; rw [hj]; exact hlt.le
            · exact h2 j hj
        · refine ⟨k, ?_, fun j hj => ?_⟩
          · rw [e1]; simp [fmax, XR.lt, hlt]
          · rcases List.mem_cons.1 hj with hj | hj
            · injection hj with hj; exact hj.le
            · exact (h2 j hj).trans (not_lt.1 hlt)
  have : Nonempty (Fin N) := ⟨⟨0, hN⟩⟩
  have hne : List.ofFn x ≠ [] := by
    intro h; have := congrArg List.length h; rw [List.length_ofFn, List.length_nil] at this; omega
  obtain ⟨k, hk, hk2⟩ := key _ hne (by
    intro y hy; obtain ⟨j, rfl⟩ := (List.mem_ofFn' _ _).1 hy; exact ⟨j, ha j⟩)
  refine ⟨a k, hk, fa k, ?_⟩
  have hb : BddAbove (Set.range v) := Set.finite_range v |>.bddAbove
  have h1 : v k ≤ ⨆ k, v k := le_ciSup hb k
  have h2 : (⨆ k, v k) ≤ a k + g := by
    refine ciSup_le fun j => ?_
    have h3 := hk2 j ((List.mem_ofFn' _ _).2 ⟨j, ha j⟩)
    have h4 := abs_le.1 (ha2 j)
    linarith
  have h5 := abs_le.1 (ha2 k)
  rw [abs_le]; constructor <;> linarith

lemma match_near (lib : Lib F) (hl : lib.Accurate e) (hSf : ∀ i, F.IsFloat (S i)) (a b : ℕ) (w1 : WellScaled F (a + n + b) S h1)
    (w2 : WellScaled F (a + n + b) S h2) (z1 : Sizes F (a + n + b) n S (normSq S h1) e) (z2 : Sizes F (a + n + b) n S (normSq S h2) e) :
    FNear F (get_match_arr F lib a b (fun i => .fin (S i)) (fun i => ofC (h1 i)) (fun i => ofC (h2 i)))
      ((⨆ k : Fin (a + n + b), ‖∑ i : Fin n, star (h1 i) * h2 i / (S i : ℂ) * dft (a + n + b) k i‖)
        / (√(normSq S h1) * √(normSq S h2))) (200 * e) := by
  have z := z1.prod z2
  set P := √(normSq S h1) * √(normSq S h2) with hPdef
  have e0 := z.e0
  have he := z.e1
  have hP := z.Q0
  have heP := z.eQ
  have hM := z.roomy.max_big
  have hm := minNormal_pos (F := F)
  have hm4 := z.roomy.toWF.min_le
  have hZ := sum_prod_le (n := n) z.Spos h1 h2
  have hZi : ∀ i, 0 ≤ ‖h1 i‖ * ‖h2 i‖ := fun i => by positivity
  have hZP : ∀ i, ‖h1 i‖ * ‖h2 i‖ / S i ≤ P := fun i =>
    (Finset.single_le_sum (f := fun i => ‖h1 i‖ * ‖h2 i‖ / S i) (fun j _ => div_nonneg (hZi j) (z.Spos j).le)
      (Finset.mem_univ i)).trans hZ
  have hn0 : 0 < n := by
    rcases Nat.eq_zero_or_pos n with h | h
    · subst h
      have : normSq S h1 = 0 := by simp [normSq]
      have h2 := z1.Q0
      rw [this] at h2; exact absurd h2 (lt_irrefl _)
    · exact h
  have hterm : ∀ i, CNear F (lib.cdiv (cmul F (conj (ofC (h1 i))) (ofC (h2 i))) (.fin (S i)))
      (star (h1 i) * h2 i / (S i : ℂ))
      (7 * e * (‖h1 i‖ * ‖h2 i‖ / S i) + 14 * (F.minNormal / S i) + 4 * F.minNormal) := by
    intro i
    have := cdiv_near lib hl hSf z i (prod_near z.roomy z.ue he w1 w2 i) (by rw [norm_mul, norm_star]) (hZi i) (hZP i) (by norm_num)
      (by norm_num) (by norm_num)
    refine this.mono (le_of_eq ?_)
    ring
  choose t ht ft ht2 using hterm
  set T : Fin n → ℂ := fun i => star (h1 i) * h2 i / (S i : ℂ) with hT
  have hTn : ∀ i, ‖T i‖ = ‖h1 i‖ * ‖h2 i‖ / S i := fun i => by
    rw [hT]; beta_reduce
    rw [norm_div, norm_mul, norm_star, Complex.norm_real, Real.norm_eq_abs, abs_of_pos (z.Spos i)]
  have hsumT : ∑ i, ‖T i‖ ≤ P := by simp only [hTn]; exact hZ
  have herr : ∑ i, ‖t i - T i‖ ≤ 25 * e * P := by
    refine (Finset.sum_le_sum fun i _ => ht2 i).trans ?_
    have := err_sum z (K := 7) (L := 14) (by norm_num) (by norm_num) hZ
    linarith
  have hsumt : ∑ i, ‖t i‖ ≤ P + 25 * e * P := by
    have : ∑ i, ‖t i‖ ≤ ∑ i, (‖T i‖ + ‖t i - T i‖) := Finset.sum_le_sum fun i _ => norm_le_norm_add_norm_sub' _ _
    rw [Finset.sum_add_distrib] at this; linarith
  set M := a + n + b with hMdef
  have hMpos : 0 < M := by omega
  have hMr : (0 : ℝ) < (M : ℝ) := by exact_mod_cast hMpos
  have hMc : (M : ℂ) ≠ 0 := by exact_mod_cast hMpos.ne'
  -- the padded array
  set x : Fin (a + n + b) → ℂ := Fin.append (Fin.append (fun _ : Fin a => (0 : ℂ)) t) (fun _ : Fin b => 0) with hx
  have hpad : (Fin.append (Fin.append (fun _ : Fin a => ((.fin 0, .fin 0) : XR × XR))
      (fun i => lib.cdiv (cmul F (conj (ofC (h1 i))) (ofC (h2 i))) (.fin (S i)))) (fun _ : Fin b => (.fin 0, .fin 0)))
      = fun i => ofC (x i) := by
    funext i
    refine Fin.addCases (fun j => ?_) (fun j => ?_) i
    · rw [Fin.append_left, hx, Fin.append_left]
      refine Fin.addCases (fun l => ?_) (fun l => ?_) j
      · rw [Fin.append_left, Fin.append_left]; rfl
      · rw [Fin.append_right, Fin.append_right]; exact ht l
    · rw [Fin.append_right, hx, Fin.append_right]; rfl
  have hz0 : CFloat F 0 := ⟨⟨rd_zero, by rw [Complex.zero_re, abs_zero]; exact two_zpow_pos _⟩,
    ⟨rd_zero, by rw [Complex.zero_im, abs_zero]; exact two_zpow_pos _⟩⟩
  have hxf : ∀ i, CFloat F (x i) := by
    intro i
    refine Fin.addCases (fun j => ?_) (fun j => ?_) i
    · rw [hx, Fin.append_left]
      refine Fin.addCases (fun l => ?_) (fun l => ?_) j
      · rw [Fin.append_left]; exact hz0
      · rw [Fin.append_right]; exact ft l
    · rw [hx, Fin.append_right]; exact hz0
  have hxs : ∑ i, ‖x i‖ = ∑ i, ‖t i‖ := by
    rw [Fin.sum_univ_add, Fin.sum_univ_add]
    simp only [hx, Fin.append_left, Fin.append_right, norm_zero, Finset.sum_const_zero, _root_.zero_add, _root_.add_zero]
  have k8 := z.high
  have hfft := hl.ifft x hxf (by rw [hxs]; nlinarith only [hsumt, heP, k8, hP])
  choose y hy fy hy2 using hfft
  -- the exact transform
  have hdft : ∀ k : Fin (a + n + b), ‖∑ i : Fin (a + n + b), x i * Complex.exp (2 * Real.pi * Complex.I * k * i / (a + n + b : ℕ))
      - dft M k a * ∑ i : Fin n, T i * dft M k i‖ ≤ 25 * e * P := by
    intro k
    have e1 : ∑ i : Fin (a + n + b), x i * Complex.exp (2 * Real.pi * Complex.I * k * i / (a + n + b : ℕ))
        = dft M k a * ∑ i : Fin n, t i * dft M k i := by
      rw [Fin.sum_univ_add, Fin.sum_univ_add]
      simp only [hx, Fin.append_left, Fin.append_right, zero_mul, Finset.sum_const_zero, _root_.zero_add, _root_.add_zero,
        Fin.val_castAdd, Fin.val_natAdd]
      rw [Finset.mul_sum]
      refine Finset.sum_congr rfl fun i _ => ?_
      have : Complex.exp (2 * Real.pi * Complex.I * (k : ℕ) * ((a + (i : ℕ) : ℕ) : ℂ) / ((a + n + b : ℕ) : ℂ))
        = dft M k a * dft M k i := dft_add _ _ _ _
      rw [this]; ring
    rw [e1, ← mul_sub, norm_mul, norm_dft, one_mul, ← Finset.sum_sub_distrib]
    refine (norm_sum_le _ _).trans (le_trans (le_of_eq (Finset.sum_congr rfl fun i _ => ?_)) herr)
    rw [← sub_mul, norm_mul, norm_dft, mul_one]
  have hDn : ∀ k : Fin (a + n + b), ‖dft M k a * ∑ i : Fin n, T i * dft M k i‖ = ‖∑ i : Fin n, T i * dft M k i‖ := fun k => by
    rw [norm_mul, norm_dft, one_mul]
  have hI : ∀ k : Fin (a + n + b), ‖∑ i : Fin n, T i * dft M k i‖ ≤ P := fun k => by
    refine (norm_sum_le _ _).trans (le_trans (le_of_eq (Finset.sum_congr rfl fun i _ => ?_)) hsumT)
    rw [norm_mul, norm_dft, mul_one]
  have hmod : ∀ k : Fin (a + n + b), FNear F (lib.cabs (F.mul (.fin (M : ℝ)) (ofC (y k)).1, F.mul (.fin (M : ℝ)) (ofC (y k)).2))
      ‖∑ i : Fin n, T i * dft M k i‖ (105 * e * P) := by
    intro k
    set D := dft M k a * ∑ i : Fin n, T i * dft M k i with hD
    have hDP : ‖D‖ ≤ P := by rw [hD, hDn]; exact hI k
    have hyD : ‖(M : ℂ) * y k - D‖ ≤ 31 * e * P := by
      have b1 := hy2 k
      have b2 := hdft k
      rw [hxs] at b1
      set X := ∑ i : Fin (a + n + b), x i * Complex.exp (2 * Real.pi * Complex.I * k * i / (a + n + b : ℕ)) with hX
      have b3 : (M : ℂ) * y k - D = (M : ℂ) * (y k - 1 / (M : ℂ) * X) + (X - D) := by field_simp; ring
      rw [b3]
      have b4 : ‖(M : ℂ) * (y k - 1 / (M : ℂ) * X)‖ ≤ e * (P + 25 * e * P) + 4 * (F.minNormal * M) := by
        rw [norm_mul, Complex.norm_natCast]
        refine (mul_le_mul_of_nonneg_left b1 hMr.le).trans ?_
        have : (M : ℝ) * (e * ((∑ i, ‖t i‖) / (M : ℝ)) + 4 * F.minNormal) = e * ∑ i, ‖t i‖ + 4 * (F.minNormal * M) := by
          field_simp
        rw [this]
        have := mul_le_mul_of_nonneg_left hsumt e0.le
        linarith
      have b5 := norm_add_le ((M : ℂ) * (y k - 1 / (M : ℂ) * X)) (X - D)
      have b6 := z.mN.trans z.uQ
      have b7 : e * (e * P) ≤ e * (1 / 1000 * P) := mul_le_mul_of_nonneg_left heP e0.le
      have b8 := mul_pos e0 hP
      nlinarith only [b2, b4, b5, b6, b7, b8]
    have hyn : ‖(M : ℂ) * y k‖ ≤ P + 31 * e * P := by
      have := norm_le_norm_add_norm_sub' ((M : ℂ) * y k) D; linarith
    have hpart : ∀ v : ℝ, |(M : ℝ) * v| ≤ ‖(M : ℂ) * y k‖ → FNear F (F.mul (.fin (M : ℝ)) (.fin v)) ((M : ℝ) * v) (4 * e * P) := by
      intro v hv
      refine ofReal_fnear z.roomy.toWF (x := (M : ℝ) * v) (e := 0) (V := P + 31 * e * P) (by simp) (hv.trans hyn) ?_ ?_
      · have c1 := mul_le_mul_of_nonneg_right z.ue (show 0 ≤ P + 31 * e * P by positivity)
        have c2 := z.mQ.trans z.uQ
        have b7 : e * (e * P) ≤ e * (1 / 1000 * P) := mul_le_mul_of_nonneg_left heP e0.le
        have b8 := mul_pos e0 hP
        nlinarith only [c1, c2, b7, b8]
      · nlinarith only [heP, k8, hP]
    have hre : ((M : ℂ) * y k).re = (M : ℝ) * (y k).re := by simp
    have him : ((M : ℂ) * y k).im = (M : ℝ) * (y k).im := by simp
    obtain ⟨p, hp, fp, hp2⟩ := hpart (y k).re (by rw [← hre]; exact Complex.abs_re_le_norm _)
    obtain ⟨q, hq, fq, hq2⟩ := hpart (y k).im (by rw [← him]; exact Complex.abs_im_le_norm _)
    have e2 : (F.mul (.fin (M : ℝ)) (ofC (y k)).1, F.mul (.fin (M : ℝ)) (ofC (y k)).2) = ofC ⟨p, q⟩ := Prod.ext hp hq
    rw [e2]
    have hpq : ‖(⟨p, q⟩ : ℂ) - D‖ ≤ 39 * e * P := by
      have c1 : ‖(⟨p, q⟩ : ℂ) - (M : ℂ) * y k‖ ≤ 8 * e * P := by
        refine (Complex.norm_le_abs_re_add_abs_im _).trans ?_
        rw [Complex.sub_re, Complex.sub_im, hre, him]
        show |p - _| + |q - _| ≤ _
        linarith
      have c2 : ‖(⟨p, q⟩ : ℂ) - D‖ ≤ ‖(⟨p, q⟩ : ℂ) - (M : ℂ) * y k‖ + ‖(M : ℂ) * y k - D‖ := norm_sub_le_norm_sub_add_norm_sub _ _ _
      linarith
    have hpqn : ‖(⟨p, q⟩ : ℂ)‖ ≤ P + 39 * e * P := by
      have := norm_le_norm_add_norm_sub' (⟨p, q⟩ : ℂ) D; linarith
    obtain ⟨r, hr, fr, hr2⟩ := hl.cabs ⟨p, q⟩ ⟨fp, fq⟩ (by nlinarith only [hpqn, heP, k8, hP])
    refine ⟨r, hr, fr, ?_⟩
    rw [← hDn k]
    have a1 : |r - ‖D‖| ≤ |r - ‖(⟨p, q⟩ : ℂ)‖| + |‖(⟨p, q⟩ : ℂ)‖ - ‖D‖| := abs_sub_le _ _ _
    have a2 := (abs_norm_sub_norm_le (⟨p, q⟩ : ℂ) D).trans hpq
    have a3 := mul_le_mul_of_nonneg_left hpqn e0.le
    have a4 : e * (e * P) ≤ e * (1 / 1000 * P) := mul_le_mul_of_nonneg_left heP e0.le
    have a5 := z.mQ.trans z.uQ
    have a6 := mul_pos e0 hP
    nlinarith only [a1, a2, a3, a4, a5, a6, hr2]
  have hmax := maxOf_near hMpos hmod
  have : Nonempty (Fin (a + n + b)) := ⟨⟨0, hMpos⟩⟩
  have := quot_near z (Real.iSup_nonneg fun k => norm_nonneg _) (ciSup_le hI) hmax (norms_near lib hl w1 w2 z1 z2 z)
  unfold get_match_arr
  simp only [hpad, hy]
  exact this

end pair

/-! ### towards the exact model, and a library -/

open Spec

lemma Lib.Accurate.mono {F : Fmt} {lib : Lib F} {δ e : ℝ} (h : lib.Accurate δ) (he : δ ≤ e) : lib.Accurate e where
  cabs z a b := by
    obtain ⟨r, h1, h2, h3⟩ := h.cabs z a b
    exact ⟨r, h1, h2, h3.trans (by have := mul_le_mul_of_nonneg_right he (norm_nonneg z); linarith)⟩
  cdiv z s a b c d := by
    obtain ⟨r, h1, h2, h3⟩ := h.cdiv z s a b c d
    exact ⟨r, h1, h2, h3.trans (by
      have := mul_le_mul_of_nonneg_right he (div_nonneg (norm_nonneg z) c.le); linarith)⟩
  ifft x a b k := by
    obtain ⟨r, h1, h2, h3⟩ := h.ifft x a b k
    exact ⟨r, h1, h2, h3.trans (by
      have h0 : 0 ≤ ∑ i, ‖x i‖ := Finset.sum_nonneg fun i _ => norm_nonneg (x i)
      exact add_le_add_left (mul_le_mul_of_nonneg_right he (div_nonneg h0 (Nat.cast_nonneg _))) _)⟩

lemma one_le_of_scaled {F : Fmt} {N n : ℕ} {S : Fin n → ℝ} {h : Fin n → ℂ} (w : WellScaled F N S h) : 1 ≤ n := by
  rcases Nat.eq_zero_or_pos n with e | e
  · subst e
    have h1 := w.low
    have h2 : normSq S h = 0 := by simp [normSq]
    have h3 := minNormal_pos (F := F)
    have h4 : (0 : ℝ) ≤ N := Nat.cast_nonneg N
    rw [h2, mul_zero] at h1
    nlinarith
  · exact e

lemma N2_fin {n : ℕ} (S : Fin n → ℝ) (h : Fin n → ℂ) : N2 (fun i => .fin (S i)) h = normSq S h :=
  Finset.sum_congr rfl fun i _ => by simp [wt, div_eq_mul_inv]

lemma psd_fin {n : ℕ} {S : Fin n → ℝ} (hS : ∀ i, 0 < S i) : IsPSD fun i => .fin (S i) := fun i => Or.inl ⟨S i, hS i, rfl⟩

/-- the exact library with rounded results has error `2 u` -/
lemma exactLib_accurate {F : Fmt} (hF : F.Roomy) : (exactLib hF.toWF).Accurate (2 * F.u) := by
  have hu := u_pos (F := F)
  have hus := hF.u_small
  have hm := minNormal_pos (F := F)
  have hm4 := hF.toWF.min_le
  have hM := hF.max_big
  have key : ∀ (v B : ℝ), |v| ≤ B → 2 * B < 2 ^ F.emax → FNear F (F.ofReal v) v (F.u * B + 2 * F.minNormal) := by
    intro v B h1 h2
    have h0 : 0 ≤ B := (abs_nonneg v).trans h1
    have h3 : F.u * B ≤ 1 / 1024 * B := mul_le_mul_of_nonneg_right hus h0
    exact ofReal_fnear hF.toWF (e := 0) (V := B) (by simp) h1 (by linarith) (by linarith)
  have key2 : ∀ (v : ℂ) (B : ℝ), ‖v‖ ≤ B → 2 * B < 2 ^ F.emax →
      CNear F (F.ofReal v.re, F.ofReal v.im) v (2 * F.u * B + 4 * F.minNormal) := by
    intro v B h1 h2
    obtain ⟨p, a1, a2, a3⟩ := key v.re B ((Complex.abs_re_le_norm v).trans h1) h2
    obtain ⟨q, b1, b2, b3⟩ := key v.im B ((Complex.abs_im_le_norm v).trans h1) h2
    refine ⟨⟨p, q⟩, Prod.ext a1 b1, ⟨a2, b2⟩, (Complex.norm_le_abs_re_add_abs_im _).trans ?_⟩
    rw [Complex.sub_re, Complex.sub_im]
    show |p - _| + |q - _| ≤ _
    linarith
  refine ⟨fun z _ h => ?_, fun z s _ _ hs h => ?_, fun {N} x _ h k => ?_⟩
  · have e1 : (exactLib hF.toWF).cabs (ofC z) = F.ofReal ‖z‖ := by
      show F.ofReal (Real.sqrt (z.re ^ 2 + z.im ^ 2)) = _
      rw [Complex.norm_eq_sqrt_sq_add_sq]
    rw [e1]
    obtain ⟨r, a1, a2, a3⟩ := key ‖z‖ ‖z‖ (by rw [abs_norm]) h
    have := mul_nonneg hu.le (norm_nonneg z)
    exact ⟨r, a1, a2, by linarith⟩
  · have e1 : (exactLib hF.toWF).cdiv (ofC z) (.fin s) = (F.ofReal (z / (s : ℂ)).re, F.ofReal (z / (s : ℂ)).im) := by
      show (F.round (.fin z.re / .fin s), F.round (.fin z.im / .fin s)) = _
      rw [XR.div_fin _ hs.ne', XR.div_fin _ hs.ne', Complex.div_ofReal_re, Complex.div_ofReal_im]; rfl
    rw [e1]
    obtain ⟨w, a1, a2, a3⟩ := key2 (z / (s : ℂ)) (‖z‖ / s)
      (by rw [norm_div, Complex.norm_real, Real.norm_eq_abs, abs_of_pos hs]) h
    exact ⟨w, a1, a2, a3⟩
  · have hN : 0 < N := lt_of_le_of_lt (Nat.zero_le _) k.2
    have hN1 : (1 : ℝ) ≤ N := by exact_mod_cast hN
    set v := 1 / (N : ℂ) * ∑ i : Fin N, x i * Complex.exp (2 * Real.pi * Complex.I * k * i / N) with hv
    have hexp : ∀ i : Fin N, Complex.exp (2 * Real.pi * Complex.I * k * i / N)
        = ⟨Real.cos (2 * Real.pi * k * i / N), Real.sin (2 * Real.pi * k * i / N)⟩ := by
      intro i
      rw [show 2 * Real.pi * Complex.I * k * i / N = ((2 * Real.pi * k * i / N : ℝ) : ℂ) * Complex.I by push_cast; ring]
      generalize 2 * Real.pi * k * i / N = y
      apply Complex.ext
      · exact Complex.exp_ofReal_mul_I_re y
      · exact Complex.exp_ofReal_mul_I_im y
    have hre : v.re = 1 / (N : ℝ) * ∑ i : Fin N, ((x i).re * Real.cos (2 * Real.pi * k * i / N) - (x i).im * Real.sin (2 * Real.pi * k * i / N)) := by
      rw [hv, show (1 : ℂ) / (N : ℂ) = ((1 / (N : ℝ) : ℝ) : ℂ) by push_cast; rfl, Complex.re_ofReal_mul, Complex.re_sum]
      congr 1
      exact Finset.sum_congr rfl fun i _ => by rw [hexp, Complex.mul_re]
    have him : v.im = 1 / (N : ℝ) * ∑ i : Fin N, ((x i).re * Real.sin (2 * Real.pi * k * i / N) + (x i).im * Real.cos (2 * Real.pi * k * i / N)) := by
      rw [hv, show (1 : ℂ) / (N : ℂ) = ((1 / (N : ℝ) : ℝ) : ℂ) by push_cast; rfl, Complex.im_ofReal_mul, Complex.im_sum]
      congr 1
      exact Finset.sum_congr rfl fun i _ => by rw [hexp, Complex.mul_im]
    have e1 : (exactLib hF.toWF).ifft (fun i => ofC (x i)) k = (F.ofReal v.re, F.ofReal v.im) := by
      rw [hre, him]
      exact if_pos fun i => ⟨trivial, trivial⟩
    rw [e1]
    have hs0 : 0 ≤ ∑ i, ‖x i‖ := Finset.sum_nonneg fun i _ => norm_nonneg (x i)
    have hle : (∑ i, ‖x i‖) / (N : ℝ) ≤ ∑ i, ‖x i‖ := div_le_self hs0 hN1
    obtain ⟨w, a1, a2, a3⟩ := key2 v ((∑ i, ‖x i‖) / N) (by
      rw [hv, norm_mul, norm_div, norm_one, Complex.norm_natCast, one_div, inv_mul_eq_div]
      refine div_le_div_of_nonneg_right ((norm_sum_le _ _).trans (le_of_eq (Finset.sum_congr rfl fun i _ => ?_))) (by linarith)
      have := norm_dft N k i
      rw [dft] at this
      rw [norm_mul, this, mul_one]) (by linarith)
    exact ⟨w, a1, a2, a3⟩

lemma exactLib_phase (hF : F.Roomy) (f t : ℝ) :
    ‖(⟨((exactLib hF.toWF).cis f t).1, ((exactLib hF.toWF).cis f t).2⟩ : ℂ) - Complex.exp (Complex.I * 2 * Real.pi * f * t)‖ ≤ 6 * F.u := by
  have hu := u_pos (F := F)
  have hmu := hF.toWF.min_le_u
  rw [show Complex.I * 2 * Real.pi * f * t = ((2 * Real.pi * f * t : ℝ) : ℂ) * Complex.I by push_cast; ring]
  refine (Complex.norm_le_abs_re_add_abs_im _).trans ?_
  rw [Complex.sub_re, Complex.sub_im, Complex.exp_ofReal_mul_I_re, Complex.exp_ofReal_mul_I_im]
  show |F.rd (Real.cos (2 * Real.pi * f * t)) - _| + |F.rd (Real.sin (2 * Real.pi * f * t)) - _| ≤ _
  have h1 := rd_any hF.toWF (Real.cos (2 * Real.pi * f * t))
  have h2 := rd_any hF.toWF (Real.sin (2 * Real.pi * f * t))
  have h3 := mul_le_mul_of_nonneg_left (Real.abs_cos_le_one (2 * Real.pi * f * t)) hu.le
  have h4 := mul_le_mul_of_nonneg_left (Real.abs_sin_le_one (2 * Real.pi * f * t)) hu.le
  linarith

end
end Fp
end Ripple

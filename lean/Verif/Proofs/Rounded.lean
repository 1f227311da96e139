/-
  The mass conversions in rounded arithmetic.
-/
import Verif.Proofs.Fp
import Verif.Model.Rounded
import Verif.Spec.Rounded

namespace Ripple
namespace Fp

noncomputable section

lemma wf32 (b : Bool) : (binary32 b).WF := ⟨by simp [binary32], by simp [binary32], by simp [binary32], by simp [binary32]⟩
lemma wf64 (b : Bool) : (binary64 b).WF := ⟨by simp [binary64], by simp [binary64], by simp [binary64], by simp [binary64]⟩

variable {F : Fmt}

namespace Fmt.WF

lemma p1 (h : F.WF) : 1 ≤ F.p := by have := h.bits; omega

lemma u_le (h : F.WF) : F.u ≤ 1 / 8 := by
  have : (2 : ℝ) ^ (-(F.p : ℤ)) ≤ 2 ^ (-3 : ℤ) := zpow_le (by have := h.bits; omega)
  unfold Fmt.u; norm_num at this ⊢; exact this

lemma min_le (h : F.WF) : F.minNormal ≤ 1 / 4 := by
  have : (2 : ℝ) ^ (F.qmin + F.p - 1) ≤ 2 ^ (-2 : ℤ) := zpow_le (by have := h.low'; omega)
  unfold Fmt.minNormal; norm_num at this ⊢; exact this

lemma min_le_u (h : F.WF) : F.minNormal ≤ F.u := by
  unfold Fmt.minNormal Fmt.u; exact zpow_le (by have := h.low; omega)

lemma max_ge (h : F.WF) : (8 : ℝ) ≤ 2 ^ F.emax := by
  have : (2 : ℝ) ^ (3 : ℤ) ≤ 2 ^ F.emax := zpow_le h.high
  norm_num at this ⊢; exact this

lemma float_pow (h : F.WF) {k : ℤ} (hk : F.minNormal ≤ 2 ^ k) : F.rd ((2 : ℝ) ^ k) = 2 ^ k := by
  refine rd_exact 1 (k := k) (by simp) ?_ (by have := h.bits; rw [abs_one]; exact one_lt_pow₀ (by norm_num) (by omega)) hk
  have := (zpow_le_zpow_iff_right₀ (one_lt_two (α := ℝ))).1 hk
  have := h.bits; omega

lemma quarter (h : F.WF) : F.rd (1 / 4 : ℝ) = 1 / 4 := by
  have := h.float_pow (k := -2) (by norm_num; have := h.min_le; norm_num at this ⊢; exact this)
  norm_num at this ⊢; exact this

end Fmt.WF

lemma ofReal_fin {x : ℝ} (h0 : 0 ≤ x) (h : F.rd x < 2 ^ F.emax) : F.ofReal x = .fin (F.rd x) := by
  have := rd_nonneg (F := F) h0
  have := two_zpow_pos F.emax
  unfold Fmt.ofReal
  rw [if_neg (by linarith), if_neg (by linarith)]

lemma mul_fin {a b : ℝ} (h0 : 0 ≤ a * b) (h : F.rd (a * b) < 2 ^ F.emax) : F.mul (.fin a) (.fin b) = .fin (F.rd (a * b)) :=
  ofReal_fin h0 h
lemma add_fin {a b : ℝ} (h0 : 0 ≤ a + b) (h : F.rd (a + b) < 2 ^ F.emax) : F.add (.fin a) (.fin b) = .fin (F.rd (a + b)) :=
  ofReal_fin h0 h
lemma sub_fin {a b : ℝ} (h0 : 0 ≤ a - b) (h : F.rd (a - b) < 2 ^ F.emax) : F.sub (.fin a) (.fin b) = .fin (F.rd (a - b)) := by
  unfold Fmt.sub; rw [XR.sub_fin]; exact ofReal_fin h0 h
lemma div_fin {a b : ℝ} (hb : b ≠ 0) (h0 : 0 ≤ a / b) (h : F.rd (a / b) < 2 ^ F.emax) :
    F.div (.fin a) (.fin b) = .fin (F.rd (a / b)) := by
  unfold Fmt.div; rw [XR.div_fin _ hb]; exact ofReal_fin h0 h
lemma sqrt_fin {a : ℝ} (h0 : 0 ≤ a) (h : F.rd (Real.sqrt a) < 2 ^ F.emax) :
    F.sqrt (.fin a) = .fin (F.rd (Real.sqrt a)) := by
  unfold Fmt.sqrt; rw [XR.sqrt_fin h0]; exact ofReal_fin (Real.sqrt_nonneg _) h

@[simp] lemma mul_nan (x : XR) : F.mul x .nan = .nan := by unfold Fmt.mul; rw [XR.mul_nan]; rfl
@[simp] lemma nan_mul (x : XR) : F.mul .nan x = .nan := by unfold Fmt.mul; rw [XR.nan_mul]; rfl
@[simp] lemma add_nan (x : XR) : F.add x .nan = .nan := by unfold Fmt.add; rw [XR.add_nan]; rfl
@[simp] lemma nan_add (x : XR) : F.add .nan x = .nan := by unfold Fmt.add; rw [XR.nan_add]; rfl
@[simp] lemma sub_nan (x : XR) : F.sub x .nan = .nan := by unfold Fmt.sub; rw [XR.sub_nan]; rfl
@[simp] lemma nan_sub (x : XR) : F.sub .nan x = .nan := by unfold Fmt.sub; rw [XR.nan_sub]; rfl
@[simp] lemma nan_div (x : XR) : F.div .nan x = .nan := by unfold Fmt.div; rw [XR.nan_div]; rfl
@[simp] lemma div_nan (x : XR) : F.div x .nan = .nan := by unfold Fmt.div; rw [XR.div_nan]; rfl
@[simp] lemma sqrt_nan : F.sqrt .nan = .nan := rfl

/-- Range of total masses for which neither the square overflows nor underflow matters. -/
structure Safe (F : Fmt) (M : ℝ) : Prop where
  pos : 0 < M
  low : 2 * F.minNormal ≤ F.u * M ^ 2
  high : 5 * M ^ 2 < 2 ^ F.emax

namespace Safe
variable {M : ℝ}

lemma uM (hF : F.WF) (h : Safe F M) : F.minNormal ≤ F.u * M := by
  have h0 := h.pos
  have hu := u_pos (F := F)
  rcases le_or_gt M 1 with h1 | h1
  · have := h.low
    have := mul_le_mul_of_nonneg_left (show M ^ 2 ≤ M by nlinarith) hu.le
    have := minNormal_pos (F := F)
    linarith
  · have := hF.min_le_u; nlinarith

lemma two (hF : F.WF) (h : Safe F M) : 2 * F.minNormal ≤ M := by
  have := h.uM hF; have := hF.u_le; have := h.pos; nlinarith

lemma sq (hF : F.WF) (h : Safe F M) : F.minNormal ≤ M * M := by
  have := h.low; have := hF.u_le; have := h.pos; have := sq_nonneg M; have := minNormal_pos (F := F); nlinarith

lemma lt_max (hF : F.WF) (h : Safe F M) : M < 2 ^ F.emax := by
  have h0 := h.pos; have h1 := h.high; have h2 := hF.max_ge
  rcases le_or_gt M 1 with h3 | h3
  · linarith
  · nlinarith

end Safe

/-- Propagation of the rounding errors, in exact arithmetic. -/
lemma errors {u M eta A Cc D s d m1 m2 : ℝ} (hu : 0 < u) (hu8 : u ≤ 1 / 8) (hM0 : 0 < M) (he0 : 0 ≤ eta) (he : eta ≤ 1 / 4)
    (hA : |A - M * M| ≤ u * (M * M)) (hC : |Cc - 4 * A * eta| ≤ u * ((1 + u) * (M * M)))
    (hD : |D - (A - Cc)| ≤ u * ((1 + u) * (M * M))) (hD0 : 0 ≤ D) (hs : |s - Real.sqrt D| ≤ u * ((1 + u) * M))
    (hd : |d - (M - s)| ≤ u * M) (hm2 : |m2 - d / 2| ≤ u * M) (hm1 : |m1 - (M - m2)| ≤ u * M) :
    |m2 - M * (1 - Real.sqrt (1 - 4 * eta)) / 2| ≤ 3 * Real.sqrt u * M
      ∧ |m1 - M * (1 + Real.sqrt (1 - 4 * eta)) / 2| ≤ 3 * Real.sqrt u * M
      ∧ Real.sqrt (1 - 4 * eta) * |m2 - M * (1 - Real.sqrt (1 - 4 * eta)) / 2| ≤ 6 * u * M
      ∧ Real.sqrt (1 - 4 * eta) * |m1 - M * (1 + Real.sqrt (1 - 4 * eta)) / 2| ≤ 6 * u * M := by
  generalize hr : Real.sqrt (1 - 4 * eta) = r
  have hr0 : 0 ≤ r := hr ▸ Real.sqrt_nonneg _
  have hr2 : r ^ 2 = 1 - 4 * eta := hr ▸ Real.sq_sqrt (by linarith)
  have hr1 : r ≤ 1 := by nlinarith only [hr2, hr0, he0]
  generalize hw : Real.sqrt u = w
  have hw0 : 0 < w := hw ▸ Real.sqrt_pos.2 hu
  have hw2 : w ^ 2 = u := hw ▸ Real.sq_sqrt hu.le
  have hw1 : w ≤ 3 / 8 := by nlinarith only [hw2, hw0, hu8]
  have huMM : 0 < u * (M * M) := by positivity
  have huM0 : 0 < u * M := by positivity
  have hwM : 0 < w * M := by positivity
  have h9 : u * ((1 + u) * (M * M)) ≤ 9 / 8 * (u * (M * M)) := by nlinarith only [huMM, hu8]
  have h98 : u * ((1 + u) * M) ≤ 9 / 8 * (u * M) := by nlinarith only [huM0, hu8]
  have hE : |D - (M * r) ^ 2| ≤ (2 * w * M) ^ 2 := by
    have e : D - (M * r) ^ 2 = (D - (A - Cc)) - (Cc - 4 * A * eta) + (A - M * M) * (1 - 4 * eta) := by
      rw [mul_pow, hr2]; ring
    have h1 : |(A - M * M) * (1 - 4 * eta)| ≤ u * (M * M) := by
      rw [abs_mul, abs_of_nonneg (show (0 : ℝ) ≤ 1 - 4 * eta by linarith)]
      nlinarith only [hA, abs_nonneg (A - M * M), he0, he]
    have h1' := abs_le.1 h1
    have hC' := abs_le.1 hC
    have hD' := abs_le.1 hD
    rw [e, show (2 * w * M) ^ 2 = 4 * (u * (M * M)) by rw [← hw2]; ring, abs_le]
    constructor <;> linarith only [hC'.1, hC'.2, hD'.1, hD'.2, h1'.1, h1'.2, h9, huMM]
  generalize ht : Real.sqrt D = t at hs
  have ht0 : 0 ≤ t := ht ▸ Real.sqrt_nonneg _
  have ht2 : t ^ 2 = D := ht ▸ Real.sq_sqrt hD0
  have hMr : 0 ≤ M * r := by positivity
  have hprod : |t - M * r| * (t + M * r) ≤ (2 * w * M) ^ 2 := by
    have e : |t - M * r| * (t + M * r) = |D - (M * r) ^ 2| := by
      rw [← ht2, show t ^ 2 - (M * r) ^ 2 = (t - M * r) * (t + M * r) by ring, abs_mul,
        abs_of_nonneg (show 0 ≤ t + M * r by linarith)]
    rw [e]; exact hE
  have hsum : |t - M * r| ≤ t + M * r := by rw [abs_le]; constructor <;> linarith only [ht0, hMr]
  have ha0 := abs_nonneg (t - M * r)
  have hT1 : |t - M * r| ≤ 2 * w * M := by
    refine le_of_sq_le_sq ?_ (by positivity)
    rw [pow_two]
    exact (mul_le_mul_of_nonneg_left hsum ha0).trans hprod
  have hT2 : r * |t - M * r| ≤ 4 * (u * M) := by
    have h1 : |t - M * r| * (M * r) ≤ |t - M * r| * (t + M * r) := mul_le_mul_of_nonneg_left (by linarith only [ht0]) ha0
    have h2 : (2 * w * M) ^ 2 = 4 * (u * M) * M := by rw [← hw2]; ring
    have h3 : (r * |t - M * r|) * M = |t - M * r| * (M * r) := by ring
    refine le_of_mul_le_mul_right ?_ hM0
    linarith only [h1, h2, h3, hprod]
  have hs' := abs_le.1 hs
  have hd' := abs_le.1 hd
  have hm2' := abs_le.1 hm2
  have hm1' := abs_le.1 hm1
  have b2 : |m2 - M * (1 - r) / 2| ≤ |t - M * r| / 2 + 33 / 16 * (u * M) := by
    have h1 := abs_le.1 (le_refl |t - M * r|)
    rw [abs_le]
    constructor <;> linarith only [h1.1, h1.2, hs'.1, hs'.2, hd'.1, hd'.2, hm2'.1, hm2'.2, huM0, h98]
  have b1 : |m1 - M * (1 + r) / 2| ≤ |t - M * r| / 2 + 49 / 16 * (u * M) := by
    have h1 := abs_le.1 b2
    rw [abs_le]
    constructor <;> linarith only [h1.1, h1.2, hm1'.1, hm1'.2, huM0]
  have huw : u * M ≤ 3 / 8 * (w * M) := by
    rw [← hw2]; nlinarith only [hwM, hw1]
  have hrb : r * (u * M) ≤ u * M := by nlinarith only [huM0, hr1]
  have c2 := mul_le_mul_of_nonneg_left b2 hr0
  have c1 := mul_le_mul_of_nonneg_left b1 hr0
  refine ⟨by linarith only [b2, hT1, huw, hwM], by linarith only [b1, hT1, huw, hwM],
    by linarith only [c2, hT2, hrb, huM0], by linarith only [c1, hT2, hrb, huM0]⟩

/-- The computation of the component masses from the total mass, in the domain of the conversion. -/
lemma core (hF : F.WF) {M eta : ℝ} (hM : Safe F M) (hMf : F.rd M = M) (he0 : 0 ≤ eta) (he : eta ≤ 1 / 4) :
    ∃ m1 m2 : ℝ,
      F.div (F.sub (.fin M) (F.sqrt (F.sub (F.mul (.fin M) (.fin M))
        (F.mul (F.mul (.fin 4) (F.mul (.fin M) (.fin M))) (.fin eta))))) (.fin 2) = .fin m2
      ∧ F.sub (.fin M) (.fin m2) = .fin m1
      ∧ 0 ≤ m2 ∧ m2 ≤ M / 2 ∧ M / 2 ≤ m1 ∧ m1 ≤ M
      ∧ (eta = 1 / 4 → m1 = M / 2 ∧ m2 = M / 2)
      ∧ |m2 - M * (1 - Real.sqrt (1 - 4 * eta)) / 2| ≤ 3 * Real.sqrt F.u * M
      ∧ |m1 - M * (1 + Real.sqrt (1 - 4 * eta)) / 2| ≤ 3 * Real.sqrt F.u * M
      ∧ Real.sqrt (1 - 4 * eta) * |m2 - M * (1 - Real.sqrt (1 - 4 * eta)) / 2| ≤ 6 * F.u * M
      ∧ Real.sqrt (1 - 4 * eta) * |m1 - M * (1 + Real.sqrt (1 - 4 * eta)) / 2| ≤ 6 * F.u * M := by
  have hp := hF.p1
  have hM0 := hM.pos
  have hu := u_pos (F := F)
  have hu8 := hF.u_le
  have hmax := hM.lt_max hF
  have hhigh := hM.high
  have hMM : 0 ≤ M * M := (mul_pos hM0 hM0).le
  have hlow : F.minNormal ≤ F.u * (M * M) := by
    have := hM.low; have := minNormal_pos (F := F); rw [pow_two] at *; linarith
  -- the square
  set A := F.rd (M * M) with hA
  have hA1 := abs_le.1 (rd_err hp hMM le_rfl hlow)
  rw [← hA] at hA1
  have hAn : F.minNormal ≤ A := by
    rw [hA, rd_normal hp (hM.sq hF)]; exact minNormal_le_rnd hp (hM.sq hF)
  have hA0 : 0 < A := minNormal_pos.trans_le hAn
  have hAf : F.rd A = A := rd_idem hp _
  have hAB : A ≤ (1 + F.u) * (M * M) := by linarith [hA1.2]
  have h4A : 4 * A < 2 ^ F.emax := by nlinarith
  have e1 : F.mul (.fin M) (.fin M) = .fin A := mul_fin hMM (by rw [← hA]; linarith)
  have r4 : F.rd (4 * A) = 4 * A := by have := rd_scale_up 2 hp hAf hAn; norm_num at this; exact this
  have e2 : F.mul (.fin 4) (.fin A) = .fin (4 * A) := by
    rw [mul_fin (by positivity) (by rw [r4]; exact h4A), r4]
  -- the product with eta
  have hCA : 4 * A * eta ≤ A := by nlinarith
  have hC0 : 0 ≤ 4 * A * eta := by positivity
  set Cc := F.rd (4 * A * eta) with hC
  have hCle : Cc ≤ A := by have := rd_mono hp hC0 hCA; rwa [hAf] at this
  have hC0' : 0 ≤ Cc := rd_nonneg hC0
  have hlowB : F.minNormal ≤ F.u * ((1 + F.u) * (M * M)) := by nlinarith
  have hC1 := abs_le.1 (rd_err hp hC0 (hCA.trans hAB) hlowB)
  rw [← hC] at hC1
  have e3 : F.mul (.fin (4 * A)) (.fin eta) = .fin Cc := mul_fin hC0 (by rw [← hC]; linarith)
  -- the difference
  have hD0' : 0 ≤ A - Cc := by linarith
  set D := F.rd (A - Cc) with hD
  have hD0 : 0 ≤ D := rd_nonneg hD0'
  have hDA : D ≤ A := by have := rd_mono hp hD0' (show A - Cc ≤ A by linarith); rwa [hAf] at this
  have hD1 := abs_le.1 (rd_err hp hD0' (show A - Cc ≤ (1 + F.u) * (M * M) by linarith) hlowB)
  rw [← hD] at hD1
  have e4 : F.sub (.fin A) (.fin Cc) = .fin D := sub_fin hD0' (by rw [← hD]; linarith)
  -- the root
  set s := F.rd (Real.sqrt D) with hs
  have hs0 : 0 ≤ s := rd_nonneg (Real.sqrt_nonneg _)
  have hsM : s ≤ M := rd_sqrt_sq hp hMf (by have := hM.two hF; have := minNormal_pos (F := F); linarith) (hM.sq hF)
    (by rw [← hA]; exact hDA)
  have e5 : F.sqrt (.fin D) = .fin s := sqrt_fin hD0 (by rw [← hs]; linarith)
  -- the masses
  have hd0 : 0 ≤ M - s := by linarith
  set d := F.rd (M - s) with hd
  have hd1 : d ≤ M := by have := rd_mono hp hd0 (show M - s ≤ M by linarith); rwa [hMf] at this
  have hd0' : 0 ≤ d := rd_nonneg hd0
  have e6 : F.sub (.fin M) (.fin s) = .fin d := sub_fin hd0 (by rw [← hd]; linarith)
  have hhalf := rd_half hp hMf (hM.two hF)
  set m2 := F.rd (d / 2) with hm2
  have hm20 : 0 ≤ m2 := rd_nonneg (by linarith)
  have hm21 : m2 ≤ M / 2 := by
    have := rd_mono hp (show (0 : ℝ) ≤ d / 2 by linarith) (show d / 2 ≤ M / 2 by linarith); rwa [hhalf] at this
  have e7 : F.div (.fin d) (.fin 2) = .fin m2 := div_fin two_ne_zero (by linarith) (by rw [← hm2]; linarith)
  set m1 := F.rd (M - m2) with hm1
  have hm11 : M / 2 ≤ m1 := by
    have := rd_mono hp (show (0 : ℝ) ≤ M / 2 by linarith) (show M / 2 ≤ M - m2 by linarith); rwa [hhalf] at this
  have hm12 : m1 ≤ M := by
    have := rd_mono hp (show (0 : ℝ) ≤ M - m2 by linarith) (show M - m2 ≤ M by linarith); rwa [hMf] at this
  have e8 : F.sub (.fin M) (.fin m2) = .fin m1 := sub_fin (by linarith) (by rw [← hm1]; linarith)
  -- errors
  have huM : F.minNormal ≤ F.u * M := hM.uM hF
  have htB : Real.sqrt D ≤ (1 + F.u) * M := by
    refine Real.sqrt_le_iff.2 ⟨by positivity, ?_⟩
    have h1 : D ≤ (1 + F.u) * (M * M) := hDA.trans hAB
    have h2 : (1 + F.u) * (M * M) ≤ ((1 + F.u) * M) ^ 2 := by
      have := mul_pos hu (mul_pos hM0 hM0)
      have := mul_pos hu this
      have e : ((1 + F.u) * M) ^ 2 = (1 + F.u) * (M * M) + F.u * (M * M) + F.u * (F.u * (M * M)) := by ring
      linarith
    exact h1.trans h2
  have hmu : F.minNormal ≤ F.u * ((1 + F.u) * M) := by
    have := mul_pos hu (mul_pos hu hM0)
    have e : F.u * ((1 + F.u) * M) = F.u * M + F.u * (F.u * M) := by ring
    linarith
  have hs1 : |s - Real.sqrt D| ≤ F.u * ((1 + F.u) * M) := rd_err hp (Real.sqrt_nonneg _) htB hmu
  have hds : |d - (M - s)| ≤ F.u * M := rd_err hp hd0 (show M - s ≤ M by linarith) huM
  have hmd : |m2 - d / 2| ≤ F.u * M := rd_err hp (show (0 : ℝ) ≤ d / 2 by linarith) (show d / 2 ≤ M by linarith) huM
  have hmm : |m1 - (M - m2)| ≤ F.u * M :=
    rd_err hp (show (0 : ℝ) ≤ M - m2 by linarith) (show M - m2 ≤ M by linarith) huM
  obtain ⟨b1, b2, b3, b4⟩ := errors hu hu8 hM0 he0 he (abs_le.2 hA1) (abs_le.2 hC1) (abs_le.2 hD1) hD0 hs1 hds hmd hmm
  refine ⟨m1, m2, by rw [e1, e2, e3, e4, e5, e6, e7], e8, hm20, hm21, hm11, hm12, ?_, b1, b2, b3, b4⟩
  · intro hq
    have hcq : Cc = A := by rw [hC, hq, show 4 * A * (1 / 4) = A by ring, hAf]
    have hdq : D = 0 := by rw [hD, hcq, sub_self, rd_zero]
    have hsq : s = 0 := by rw [hs, hdq, Real.sqrt_zero, rd_zero]
    have hdd : d = M := by rw [hd, hsq, sub_zero, hMf]
    have h2 : m2 = M / 2 := by rw [hm2, hdd, hhalf]
    exact ⟨by rw [hm1, h2, show M - M / 2 = M / 2 by ring, hhalf], h2⟩

/-- the next number of the format -/
lemma next_float (hF : F.WF) {A : ℝ} (hA : F.rd A = A) (hm : F.minNormal ≤ A) : F.rd (A + 2 ^ F.lsb A) = A + 2 ^ F.lsb A := by
  have hA0 : 0 < A := minNormal_pos.trans_le hm
  have hl := two_zpow_pos (F.lsb A)
  have hAN : A = rne (A / 2 ^ F.lsb A) * 2 ^ F.lsb A := (rd_rnd hA).symm
  generalize rne (A / 2 ^ F.lsb A) = N at hAN
  have hlsb := lsb_normal (F := F) (x := A) (by rwa [abs_of_pos hA0])
  have hN0 : 0 < N := by
    rw [hAN] at hA0; have := (pos_iff_pos_of_mul_pos hA0).2 hl; exact_mod_cast this
  have hN : N < 2 ^ F.p := by
    have h1 := abs_lt_log A
    rw [show Int.log 2 |A| + 1 = F.p + F.lsb A by omega, zpow_add₀ two_ne_zero, abs_of_pos hA0] at h1
    nth_rewrite 1 [hAN] at h1
    have := lt_of_mul_lt_mul_right h1 hl.le
    rw [zpow_natCast] at this; exact_mod_cast this
  have e : A + 2 ^ F.lsb A = ((N + 1 : ℤ) : ℝ) * 2 ^ F.lsb A := by push_cast; linarith
  rcases (show N + 1 ≤ 2 ^ F.p by omega).lt_or_eq with h | h
  · exact rd_exact (N + 1) e (le_max_right _ _) (by rwa [abs_of_pos (by omega)]) (by linarith)
  · have e2 : A + 2 ^ F.lsb A = 2 ^ ((F.p : ℤ) + F.lsb A) := by
      rw [e, h, zpow_add₀ two_ne_zero]; push_cast; rfl
    rw [e2]; exact hF.float_pow (by rw [← e2]; linarith)

lemma lsb_bounds {A : ℝ} (hm : F.minNormal ≤ A) : F.u * A ≤ 2 ^ F.lsb A ∧ 2 ^ F.lsb A ≤ 2 * F.u * A := by
  have hA0 : 0 < A := minNormal_pos.trans_le hm
  have hlsb := lsb_normal (F := F) (x := A) (by rwa [abs_of_pos hA0])
  have h1 := abs_lt_log A
  have h2 := log_le_abs hA0.ne'
  rw [abs_of_pos hA0] at *
  have e : (2 : ℝ) ^ F.lsb A = F.u * 2 ^ (Int.log 2 A + 1) := by
    rw [hlsb]; unfold Fmt.u; rw [← zpow_add₀ two_ne_zero]; congr 1; ring
  rw [e]
  constructor
  · exact mul_le_mul_of_nonneg_left h1.le u_pos.le
  · rw [zpow_add₀ two_ne_zero, zpow_one]
    have := mul_le_mul_of_nonneg_left h2 (u_pos (F := F)).le
    linarith

/-- Numbers above a quarter are at least one last bit above it. -/
lemma above_quarter (hF : F.WF) {eta : ℝ} (h : F.rd eta = eta) (hq : 1 / 4 < eta) : 1 / 4 * (1 + 2 * F.u) ≤ eta := by
  have hu := hF.u_le
  rcases le_or_gt (1 / 2) eta with h2 | h2
  · linarith
  have he0 : 0 < eta := by linarith
  have hlog : Int.log 2 |eta| = -2 := by
    refine log_eq ?_ ?_ <;> rw [abs_of_pos he0] <;> norm_num <;> linarith
  have hlsb := lsb_normal (F := F) (x := eta) (by rw [abs_of_pos he0]; have := hF.min_le; linarith)
  rw [hlog] at hlsb
  have hN : eta = rne (eta / 2 ^ F.lsb eta) * 2 ^ F.lsb eta := (rd_rnd h).symm
  generalize rne (eta / 2 ^ F.lsb eta) = N at hN
  have hl := two_zpow_pos (F.lsb eta)
  obtain ⟨K, hK⟩ := zpow_mult (a := -2) (b := F.lsb eta) (by have := hF.bits; omega)
  have hq2 : (1 / 4 : ℝ) = 2 ^ (-2 : ℤ) := by norm_num
  have hKN : K + 1 ≤ N := by
    rw [hq2, hK] at hq; nth_rewrite 2 [hN] at hq
    have := lt_of_mul_lt_mul_right hq hl.le
    exact_mod_cast this
  have e : (2 : ℝ) ^ F.lsb eta = 1 / 4 * (2 * F.u) := by
    rw [hlsb, show (-2 : ℤ) - ((F.p : ℤ) - 1) = -(F.p : ℤ) + (-1) by ring, zpow_add₀ two_ne_zero]; unfold Fmt.u; norm_num; ring
  have h3 : ((K : ℝ) + 1) * 2 ^ F.lsb eta ≤ N * 2 ^ F.lsb eta := mul_le_mul_of_nonneg_right (by exact_mod_cast hKN) hl.le
  have h4 : (K : ℝ) * 2 ^ F.lsb eta = 1 / 4 := by rw [← hK]; norm_num
  rw [hN]; linarith

/-- Above a quarter the masses are nan, for every total mass. -/
lemma core_nan (hF : F.WF) {M eta : ℝ} (hM : Safe F M) (he : F.rd eta = eta) (hq : 1 / 4 < eta) :
    F.sqrt (F.sub (F.mul (.fin M) (.fin M)) (F.mul (F.mul (.fin 4) (F.mul (.fin M) (.fin M))) (.fin eta))) = .nan := by
  have hp := hF.p1
  have hM0 := hM.pos
  have hu := u_pos (F := F)
  have hu8 := hF.u_le
  have hhigh := hM.high
  have hMM : 0 < M * M := mul_pos hM0 hM0
  have hlow : 2 * F.minNormal ≤ F.u * (M * M) := by have := hM.low; rwa [pow_two] at this
  have hn0 := minNormal_pos (F := F)
  have hA1 := abs_le.1 (rd_err hp hMM.le le_rfl (show F.minNormal ≤ F.u * (M * M) by linarith))
  have hAn : F.minNormal ≤ F.rd (M * M) := by
    rw [rd_normal hp (hM.sq hF)]; exact minNormal_le_rnd hp (hM.sq hF)
  have hAf : F.rd (F.rd (M * M)) = F.rd (M * M) := rd_idem hp _
  have hAlt : 4 * F.rd (M * M) < 2 ^ F.emax := by nlinarith only [hA1.2, hu8, hhigh, hMM]
  have e1 : F.mul (.fin M) (.fin M) = .fin (F.rd (M * M)) := mul_fin hMM.le (by linarith)
  rw [e1]
  generalize F.rd (M * M) = A at *
  have hA0 : 0 < A := hn0.trans_le hAn
  have r4 : F.rd (4 * A) = 4 * A := by have := rd_scale_up 2 hp hAf hAn; norm_num at this; exact this
  have e2 : F.mul (.fin 4) (.fin A) = .fin (4 * A) := by rw [mul_fin (by positivity) (by rw [r4]; exact hAlt), r4]
  rw [e2]
  have hb := lsb_bounds hAn
  have hx : A + 2 ^ F.lsb A ≤ 4 * A * eta := by
    have := above_quarter hF he hq
    nlinarith only [hb.2, this, hA0]
  have hC : A + 2 ^ F.lsb A ≤ F.rd (4 * A * eta) := by
    rw [← next_float hF hAf hAn]; exact rd_mono hp (by linarith [two_zpow_pos (F.lsb A)]) hx
  have hx0 : 0 ≤ 4 * A * eta := by positivity
  rcases lt_or_ge (F.rd (4 * A * eta)) (2 ^ F.emax) with h | h
  · rw [mul_fin hx0 h]
    generalize F.rd (4 * A * eta) = Cc at *
    have hneg : A - Cc ≤ -(F.u * A) := by linarith [hb.1]
    have hA78 : 7 / 8 * (M * M) ≤ A := by nlinarith only [hA1.1, hu8, hMM]
    have hmn : 7 / 4 * F.minNormal ≤ F.u * A := by nlinarith only [hlow, hA78, hu, hMM]
    have habs : |A - Cc| = -(A - Cc) := abs_of_nonpos (by linarith [mul_pos hu hA0])
    have hrel := rnd_rel (F := F) (x := A - Cc) (by rw [habs]; linarith)
    rw [habs] at hrel
    have hrn : F.rnd (A - Cc) ≤ -F.minNormal := by
      have := (abs_le.1 hrel).2
      nlinarith only [this, hneg, hmn, hu8, hn0]
    have hrd : F.rd (A - Cc) = F.rnd (A - Cc) := by
      unfold Fmt.rd; rw [if_neg]; rintro ⟨-, h2⟩; rw [abs_of_nonpos (by linarith)] at h2; linarith
    unfold Fmt.sub Fmt.sqrt
    rw [XR.sub_fin]
    show F.round (XR.sqrt (F.ofReal (A - Cc))) = .nan
    unfold Fmt.ofReal
    have := two_zpow_pos F.emax
    rw [hrd, if_neg (by linarith)]
    split_ifs
    · rfl
    · rw [XR.sqrt_fin_neg (by linarith)]; rfl
  · have : F.mul (.fin (4 * A)) (.fin eta) = .pinf := by
      unfold Fmt.mul; rw [XR.mul_fin]; show F.ofReal _ = _; unfold Fmt.ofReal; rw [if_pos h]
    rw [this]; rfl

/-- Range of total masses for which the whole conversion stays in range. -/
structure Wide (F : Fmt) (M : ℝ) : Prop where
  pos : 0 < M
  low : 5 * F.minNormal ≤ F.u * M ^ 2
  high : 12 * M ^ 2 < 2 ^ F.emax

/-- the total mass -/
lemma total_mass (hF : F.WF) (lib : PowLib F) {Mc eta : ℝ} (hef : F.rd eta = eta) (he : F.minNormal ≤ eta) (he' : eta < 2 ^ F.emax)
    (hM : Wide F (Mc / eta ^ ((3 : ℝ) / 5))) :
    ∃ M, F.div (.fin Mc) (lib.pow (.fin eta) (3 / 5)) = .fin M ∧ F.rd M = M ∧ Safe F M
      ∧ |M - Mc / eta ^ ((3 : ℝ) / 5)| ≤ (2 * lib.eps + 2 * F.u) * (Mc / eta ^ ((3 : ℝ) / 5)) := by
  have hp := hF.p1
  have hu := u_pos (F := F)
  have hu8 := hF.u_le
  have he0 : 0 < eta := minNormal_pos.trans_le he
  obtain ⟨r, hr, -, hre⟩ := lib.pow_pos eta (3 / 5) hef he he' (by norm_num) (by norm_num)
  have hP : 0 < eta ^ ((3 : ℝ) / 5) := Real.rpow_pos_of_pos he0 _
  generalize eta ^ ((3 : ℝ) / 5) = P at *
  have hMc : 0 < Mc := by have := mul_pos hM.pos hP; rwa [div_mul_cancel₀ _ hP.ne'] at this
  have hr' := abs_le.1 hre
  have hee := lib.eps_le
  have hee0 := lib.eps_nonneg
  generalize lib.eps = e at *
  have hr0 : 0 < r := by nlinarith only [hr'.1, hee, hP]
  obtain ⟨x, hx⟩ : ∃ x, x = Mc / P := ⟨_, rfl⟩
  have hMcx : Mc = x * P := by rw [hx]; field_simp
  rw [← hx] at hM ⊢
  have hx0 := hM.pos
  have hQ1 : Mc / r ≤ (1 + 4 / 3 * e) * x := by
    rw [div_le_iff₀ hr0, hMcx]
    have h1 : (1 - e) * P ≤ r := by linarith [hr'.1]
    have h2 : 1 ≤ (1 + 4 / 3 * e) * (1 - e) := by nlinarith only [hee, hee0]
    have h3 : (1 + 4 / 3 * e) * x * ((1 - e) * P) ≤ (1 + 4 / 3 * e) * x * r := mul_le_mul_of_nonneg_left h1 (by positivity)
    have h4 : x * P ≤ (1 + 4 / 3 * e) * (1 - e) * (x * P) := by nlinarith only [h2, mul_pos hx0 hP]
    linarith only [h3, h4]
  have hQ2 : (1 - e) * x ≤ Mc / r := by
    rw [le_div_iff₀ hr0, hMcx]
    have h1 : r ≤ (1 + e) * P := by linarith [hr'.2]
    have h2 : (1 - e) * (1 + e) ≤ 1 := by nlinarith only [hee, hee0]
    have h3 : (1 - e) * x * r ≤ (1 - e) * x * ((1 + e) * P) :=
      mul_le_mul_of_nonneg_left h1 (mul_nonneg (by linarith) hx0.le)
    have h4 : (1 - e) * (1 + e) * (x * P) ≤ x * P := by nlinarith only [h2, mul_pos hx0 hP]
    linarith only [h3, h4]
  have hxu : 5 * F.minNormal ≤ F.u * x ∨ 1 < x := by
    rcases le_or_gt x 1 with h1 | h1
    · left; have := hM.low; have := mul_le_mul_of_nonneg_left (show x ^ 2 ≤ x by nlinarith) hu.le; linarith
    · exact Or.inr h1
  have hx1 : 2 * F.minNormal ≤ x := by
    rcases hxu with h | h
    · nlinarith only [h, hu8, hx0, minNormal_pos (F := F)]
    · have := hF.min_le; linarith
  have hQn : F.minNormal ≤ Mc / r := by nlinarith only [hQ2, hee, hx1, hx0]
  have hQ0 : 0 < Mc / r := minNormal_pos.trans_le hQn
  have hdiv : F.rd (Mc / r) < 2 ^ F.emax → F.div (.fin Mc) (.fin r) = .fin (F.rd (Mc / r)) := div_fin hr0.ne' hQ0.le
  rw [hr]
  generalize Mc / r = Q at *
  have hrel := abs_le.1 (rnd_rel (F := F) (x := Q) (by rwa [abs_of_pos hQ0]))
  rw [abs_of_pos hQ0, ← rd_normal hp hQn] at hrel
  have hup : F.rd Q ≤ (1 + F.u) * ((1 + 4 / 3 * e) * x) := by
    have := mul_le_mul_of_nonneg_left hQ1 (show (0 : ℝ) ≤ 1 + F.u by linarith); linarith [hrel.2]
  have hlo : (1 - F.u) * ((1 - e) * x) ≤ F.rd Q := by
    have := mul_le_mul_of_nonneg_left hQ2 (show (0 : ℝ) ≤ 1 - F.u by linarith); linarith [hrel.1]
  have hup' : F.rd Q ≤ 3 / 2 * x := by
    have : (1 + F.u) * (1 + 4 / 3 * e) ≤ 3 / 2 := by nlinarith only [hu8, hee, hee0, hu]
    have := mul_le_mul_of_nonneg_right this hx0.le; linarith
  have hlo' : 21 / 32 * x ≤ F.rd Q := by
    have : 21 / 32 ≤ (1 - F.u) * (1 - e) := by nlinarith only [hu8, hee, hee0, hu]
    have := mul_le_mul_of_nonneg_right this hx0.le; linarith
  have hsafe : Safe F (F.rd Q) := by
    have h0 : 0 < F.rd Q := by linarith
    have h1 : (21 / 32 * x) ^ 2 ≤ F.rd Q ^ 2 := pow_le_pow_left₀ (by positivity) hlo' 2
    have h2 : F.rd Q ^ 2 ≤ (3 / 2 * x) ^ 2 := pow_le_pow_left₀ h0.le hup' 2
    refine ⟨h0, ?_, ?_⟩
    · have := mul_le_mul_of_nonneg_left h1 hu.le
      have := hM.low
      have := minNormal_pos (F := F)
      linarith
    · have := hM.high; have := sq_nonneg x; linarith
  refine ⟨_, hdiv (hsafe.lt_max hF), rd_idem hp _, hsafe, ?_⟩
  rw [abs_le]
  have heu : 0 ≤ F.u * (e * x) := by positivity
  have heu' : F.u * (e * x) ≤ 1 / 8 * (e * x) := mul_le_mul_of_nonneg_right hu8 (by positivity)
  have hux : 0 < F.u * x := by positivity
  have hex : 0 ≤ e * x := by positivity
  constructor <;> linarith only [hup, hlo, heu, heu', hux, hex]

namespace Binary
variable {Mc eta x1 x2 : ℝ}

lemma total (h : Binary Mc eta x1 x2) : Mc / eta ^ ((3 : ℝ) / 5) = x1 + x2 := by
  have h2 := h.pos
  have h1 : 0 < x1 := h2.trans_le h.le
  have hS : 0 < x1 + x2 := by linarith
  have hx : 0 < (x1 * x2) ^ ((3 : ℝ) / 5) := Real.rpow_pos_of_pos (mul_pos h1 h2) _
  have e1 : ((x1 + x2) ^ 2) ^ ((3 : ℝ) / 5) = (x1 + x2) * (x1 + x2) ^ ((1 : ℝ) / 5) := by
    rw [← Real.rpow_natCast, ← Real.rpow_mul hS.le]
    nth_rewrite 2 [← Real.rpow_one (x1 + x2)]
    rw [← Real.rpow_add hS]; norm_num
  have hS5 : 0 < (x1 + x2) ^ ((1 : ℝ) / 5) := Real.rpow_pos_of_pos hS _
  rw [← h.chirp, ← h.ratio, Real.div_rpow (mul_pos h1 h2).le (by positivity), e1]
  field_simp

lemma root (h : Binary Mc eta x1 x2) : Real.sqrt (1 - 4 * eta) = (x1 - x2) / (x1 + x2) := by
  have h2 := h.pos
  have h1 : 0 < x1 := h2.trans_le h.le
  have hS : 0 < x1 + x2 := by linarith
  have e : 1 - 4 * eta = ((x1 - x2) / (x1 + x2)) ^ 2 := by rw [← h.ratio]; field_simp; ring
  rw [e]; exact Real.sqrt_sq (div_nonneg (by linarith [h.le]) hS.le)

lemma eta_le (h : Binary Mc eta x1 x2) : eta ≤ 1 / 4 := by
  have h2 := h.pos
  have h1 : 0 < x1 := h2.trans_le h.le
  rw [← h.ratio, div_le_iff₀ (by positivity)]; nlinarith [sq_nonneg (x1 - x2)]

end Binary

lemma masses (hF : F.WF) (lib : PowLib F) {Mc eta x1 x2 : ℝ} (hb : Binary Mc eta x1 x2) (hef : F.rd eta = eta)
    (he : F.minNormal ≤ eta)
    (hM : Wide F (x1 + x2)) :
    ∃ m1 m2 : ℝ, Mc_eta_to_ms F lib (.fin Mc) (.fin eta) = (.fin m1, .fin m2) ∧ 0 ≤ m2 ∧ m2 ≤ m1
      ∧ |m1 - x1| ≤ (2 * lib.eps + 6 * Real.sqrt F.u) * (x1 + x2)
      ∧ |m2 - x2| ≤ (2 * lib.eps + 6 * Real.sqrt F.u) * (x1 + x2)
      ∧ (x1 - x2) * |m1 - x1| ≤ (2 * lib.eps * (x1 - x2) + 13 * F.u * (x1 + x2)) * (x1 + x2)
      ∧ (x1 - x2) * |m2 - x2| ≤ (2 * lib.eps * (x1 - x2) + 13 * F.u * (x1 + x2)) * (x1 + x2) := by
  have hq := hb.eta_le
  have he0 : 0 < eta := minNormal_pos.trans_le he
  have hS := hM.pos
  rw [← hb.total] at hM
  obtain ⟨M, hMe, hMf, hMs, hMd⟩ := total_mass hF lib hef he (by have := hF.max_ge; linarith) hM
  obtain ⟨m1, m2, h1, h2, h3, h4, h5, h6, -, b2, b1, c2, c1⟩ := core hF hMs hMf he0.le hq
  rw [hb.total] at hMd
  rw [hb.root] at b1 b2 c1 c2
  refine ⟨m1, m2, ?_, h3, h4.trans h5, ?_⟩
  · unfold Mc_eta_to_ms; simp only [hMe, h1, h2]
  have hu := u_pos (F := F)
  have hu8 := hF.u_le
  have hw0 : 0 < Real.sqrt F.u := Real.sqrt_pos.2 hu
  have hw2 : Real.sqrt F.u ^ 2 = F.u := Real.sq_sqrt hu.le
  generalize Real.sqrt F.u = w at *
  have hw1 : w ≤ 3 / 8 := by nlinarith only [hw2, hw0, hu8]
  have hee := lib.eps_le
  have hee0 := lib.eps_nonneg
  generalize lib.eps = e at *
  obtain ⟨S, hSe⟩ : ∃ S, S = x1 + x2 := ⟨_, rfl⟩
  obtain ⟨r, hre⟩ : ∃ r, r = (x1 - x2) / (x1 + x2) := ⟨_, rfl⟩
  rw [← hre] at b1 b2 c1 c2
  have hx1 : x1 = S * (1 + r) / 2 := by rw [hSe, hre]; field_simp; ring
  have hx2 : x2 = S * (1 - r) / 2 := by rw [hSe, hre]; field_simp; ring
  have hd : x1 - x2 = S * r := by rw [hx1, hx2]; ring
  have hr0 : 0 ≤ r := by rw [hre]; exact div_nonneg (by linarith [hb.le]) hS.le
  have hr1 : r ≤ 1 := by rw [hre, div_le_one hS]; linarith [hb.pos]
  rw [hd]
  rw [← hSe] at hS hMd ⊢
  rw [hx1, hx2]
  have hMb : M ≤ 7 / 4 * S := by have := (abs_le.1 hMd).2; nlinarith only [this, hee, hu8, hS]
  have g1 : |M * (1 + r) / 2 - S * (1 + r) / 2| ≤ (2 * e + 2 * F.u) * S := by
    rw [show M * (1 + r) / 2 - S * (1 + r) / 2 = (M - S) * ((1 + r) / 2) by ring, abs_mul,
      abs_of_nonneg (show (0 : ℝ) ≤ (1 + r) / 2 by linarith)]
    nlinarith only [hMd, hr1, hr0, abs_nonneg (M - S)]
  have g2 : |M * (1 - r) / 2 - S * (1 - r) / 2| ≤ (2 * e + 2 * F.u) * S := by
    rw [show M * (1 - r) / 2 - S * (1 - r) / 2 = (M - S) * ((1 - r) / 2) by ring, abs_mul,
      abs_of_nonneg (show (0 : ℝ) ≤ (1 - r) / 2 by linarith)]
    nlinarith only [hMd, hr1, hr0, abs_nonneg (M - S)]
  have t1 := abs_add_le (m1 - M * (1 + r) / 2) (M * (1 + r) / 2 - S * (1 + r) / 2)
  have t2 := abs_add_le (m2 - M * (1 - r) / 2) (M * (1 - r) / 2 - S * (1 - r) / 2)
  rw [sub_add_sub_cancel] at t1 t2
  have huw : F.u * S ≤ 3 / 8 * (w * S) := by
    have := mul_le_mul_of_nonneg_right hw1 (mul_pos hw0 hS).le; rw [← hw2]; linarith only [this]
  have hwS : w * M ≤ 7 / 4 * (w * S) := by have := mul_le_mul_of_nonneg_left hMb hw0.le; linarith only [this]
  have huM : F.u * M ≤ 7 / 4 * (F.u * S) := by have := mul_le_mul_of_nonneg_left hMb hu.le; linarith only [this]
  have huS : 0 < F.u * S := by positivity
  have hru : r * (F.u * S) ≤ F.u * S := by nlinarith only [huS, hr1]
  refine ⟨by linarith only [t1, b1, g1, huw, hwS], by linarith only [t2, b2, g2, huw, hwS], ?_, ?_⟩
  · have h := mul_le_mul_of_nonneg_left (t1.trans (add_le_add_right g1 _)) hr0
    have h' : r * |m1 - S * (1 + r) / 2| ≤ 2 * e * (S * r) + 13 * F.u * S := by linarith only [h, c1, huM, hru, huS]
    have := mul_le_mul_of_nonneg_left h' hS.le
    linarith only [this]
  · have h := mul_le_mul_of_nonneg_left (t2.trans (add_le_add_right g2 _)) hr0
    have h' : r * |m2 - S * (1 - r) / 2| ≤ 2 * e * (S * r) + 13 * F.u * S := by linarith only [h, c2, huM, hru, huS]
    have := mul_le_mul_of_nonneg_left h' hS.le
    linarith only [this]

/-- a correctly rounded `pow` -/
def exactPow (hF : F.WF) : PowLib F where
  pow x q := F.round (XR.powFrac x q)
  eps := F.u
  eps_nonneg := u_pos.le
  eps_le := by have := hF.u_le; linarith
  pow_nan _ := rfl
  pow_neg a q h := by simp [XR.powFrac, h, Fmt.round]
  pow_zero q h := by
    simp only [XR.powFrac, lt_irrefl, if_false, Real.zero_rpow h.ne']
    have := ofReal_fin (F := F) (x := 0) le_rfl (by rw [rd_zero]; exact two_zpow_pos _)
    rw [rd_zero] at this; exact this
  pow_pos a q hf hn hm h0 h1 := by
    have ha : 0 < a := minNormal_pos.trans_le hn
    have hx : 0 < a ^ q := Real.rpow_pos_of_pos ha q
    have hxn : F.minNormal ≤ a ^ q := by
      rcases le_or_gt a 1 with h | h
      · refine hn.trans ?_
        have := Real.rpow_le_rpow_of_exponent_ge ha h h1.le
        rwa [Real.rpow_one] at this
      · have := Real.one_le_rpow h.le h0.le
        have := hF.min_le; linarith
    have hlt : F.rd (a ^ q) < 2 ^ F.emax := by
      rcases le_or_gt a 1 with h | h
      · have h2 := rd_mono hF.p1 hx.le (Real.rpow_le_one ha.le h h0.le)
        have h3 := hF.float_pow (k := 0) (by have := hF.min_le; norm_num; linarith)
        rw [zpow_zero] at h3
        rw [h3] at h2
        have := hF.max_ge; linarith
      · have h2 := Real.rpow_le_rpow_of_exponent_le h.le h1.le
        rw [Real.rpow_one] at h2
        have h3 := rd_mono hF.p1 hx.le h2
        rw [hf] at h3; linarith
    have hr := rnd_rel (F := F) (x := a ^ q) (by rwa [abs_of_pos hx])
    rw [← rd_normal hF.p1 hxn, abs_of_pos hx] at hr
    refine ⟨_, ?_, rd_idem hF.p1 _, hr⟩
    simp only [XR.powFrac, not_lt.2 ha.le, if_false]
    exact ofReal_fin hx.le hlt

end
end Fp
end Ripple

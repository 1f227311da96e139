/-
  Rounding errors of the analytic LIGO-I noise curve.
-/
import Verif.Model.RoundedLIGOI
import Verif.Proofs.RoundedTable

namespace Ripple
namespace Fp

noncomputable section

variable {F : Fmt}

/-- what is used about the format -/
structure Usual (F : Fmt) : Prop extends F.WF where
  u_low : 2 ^ (-53 : ℤ) ≤ F.u
  u_high : F.u ≤ 2 ^ (-20 : ℤ)
  min_high : F.minNormal ≤ 2 ^ (-110 : ℤ)
  max_low : 2 ^ (30 : ℤ) ≤ (2 : ℝ) ^ F.emax

lemma usual32 (b : Bool) : Usual (binary32 b) :=
  ⟨wf32 b, by simp [Fmt.u, binary32]; norm_num, by simp [Fmt.u, binary32]; norm_num,
    by simp only [Fmt.minNormal, binary32]; exact zpow_le (by norm_num), zpow_le (by simp [binary32])⟩

lemma usual64 (b : Bool) : Usual (binary64 b) :=
  ⟨wf64 b, by simp [Fmt.u, binary64], by simp [Fmt.u, binary64]; norm_num,
    by simp only [Fmt.minNormal, binary64]; exact zpow_le (by norm_num), zpow_le (by simp [binary64])⟩

namespace Usual

lemma m_le (h : Usual F) {v : ℝ} (hv : 2 ^ (-40 : ℤ) ≤ v) : 4 * F.minNormal ≤ F.u * v := by
  have h1 := mul_le_mul h.u_low hv (two_zpow_pos _).le u_pos.le
  have h2 := h.min_high
  norm_num at h1 h2 ⊢
  linarith

end Usual

/-- relative nearness to a positive number -/
def RNear (F : Fmt) (x : XR) (v e : ℝ) : Prop := FNear F x v (e * v)

lemma rmul (h : Usual F) {a b : XR} {v w e1 e2 : ℝ} (ha : RNear F a v e1) (hb : RNear F b w e2) (hv : 0 < v) (hw : 0 < w)
    (e10 : 0 ≤ e1) (e20 : 0 ≤ e2) (e1' : e1 ≤ 1 / 8) (e2' : e2 ≤ 1 / 8) (hlow : 2 ^ (-40 : ℤ) ≤ v * w) (hhigh : v * w ≤ 2 ^ 20) :
    RNear F (F.mul a b) (v * w) (2 * (e1 + e2) + 3 * F.u) := by
  have hu := u_pos (F := F)
  have hu2 : F.u ≤ 1 / 1024 := h.u_high.trans (by norm_num)
  obtain ⟨x, rfl, -, hx⟩ := ha
  obtain ⟨y, rfl, -, hy⟩ := hb
  have hm := h.m_le hlow
  have hvw : 0 < v * w := mul_pos hv hw
  have hp : |x * y - v * w| ≤ (e1 + e2 + e1 * e2) * (v * w) := by
    have e : x * y - v * w = (x - v) * (y - w) + (x - v) * w + v * (y - w) := by ring
    rw [e]
    refine (abs_add_three _ _ _).trans ?_
    rw [abs_mul, abs_mul, abs_mul, abs_of_pos hv, abs_of_pos hw]
    have a1 := mul_le_mul hx hy (abs_nonneg _) (by positivity)
    have a2 := mul_le_mul_of_nonneg_right hx hw.le
    have a3 := mul_le_mul_of_nonneg_left hy hv.le
    linarith
  have he : e1 * e2 ≤ 1 / 8 * e2 := mul_le_mul_of_nonneg_right e1' e20
  have hE : e1 + e2 + e1 * e2 ≤ 1 / 2 := by linarith
  have hE' : (e1 + e2 + e1 * e2) * (v * w) ≤ 1 / 2 * (v * w) := mul_le_mul_of_nonneg_right hE hvw.le
  have hmax : (2 : ℝ) ^ 30 ≤ 2 ^ F.emax := by exact_mod_cast h.max_low
  refine ofReal_fnear h.toWF hp (V := v * w) (by rw [abs_of_pos hvw]) ?_ ?_
  · have h1 : F.u * (v * w + (e1 + e2 + e1 * e2) * (v * w)) ≤ F.u * (3 / 2 * (v * w)) :=
      mul_le_mul_of_nonneg_left (by linarith) hu.le
    have h2 : (e1 + e2 + e1 * e2) * (v * w) ≤ 2 * (e1 + e2) * (v * w) := mul_le_mul_of_nonneg_right (by linarith) hvw.le
    nlinarith only [h1, h2, hm, hvw, hu, minNormal_pos (F := F)]
  · have h1 : (2 * (e1 + e2) + 3 * F.u) * (v * w) ≤ 1 * (v * w) := mul_le_mul_of_nonneg_right (by linarith) hvw.le
    norm_num at hhigh hmax
    linarith

lemma radd (h : Usual F) {a b : XR} {v w e δ : ℝ} (ha : FNear F a v (e * v + δ)) (hδ : δ ≤ F.u * (v + w)) (hb : RNear F b w e) (hv : 0 < v) (hw : 0 < w)
    (e1 : e ≤ 1 / 2) (hlow : 2 ^ (-40 : ℤ) ≤ v + w) (hhigh : v + w ≤ 2 ^ 20) :
    RNear F (F.add a b) (v + w) (e + 4 * F.u) := by
  have hu := u_pos (F := F)
  have hu2 : F.u ≤ 1 / 1024 := h.u_high.trans (by norm_num)
  obtain ⟨x, rfl, -, hx⟩ := ha
  obtain ⟨y, rfl, -, hy⟩ := hb
  have hm := h.m_le hlow
  have hvw : 0 < v + w := add_pos hv hw
  have hp : |x + y - (v + w)| ≤ e * (v + w) + δ := by
    have e : x + y - (v + w) = (x - v) + (y - w) := by ring
    rw [e]
    refine (abs_add_le _ _).trans ?_
    linarith
  have hE' : e * (v + w) ≤ 1 / 2 * (v + w) := mul_le_mul_of_nonneg_right e1 hvw.le
  have hmax : (2 : ℝ) ^ 30 ≤ 2 ^ F.emax := by exact_mod_cast h.max_low
  refine ofReal_fnear h.toWF hp (V := v + w) (by rw [abs_of_pos hvw]) ?_ ?_
  · have h1 : F.u * (v + w + (e * (v + w) + δ)) ≤ F.u * (7 / 4 * (v + w)) :=
      mul_le_mul_of_nonneg_left (by nlinarith only [hE', hδ, hu2, hvw]) hu.le
    nlinarith only [h1, hm, hvw, hu, hδ, minNormal_pos (F := F)]
  · have h1 : (e + 4 * F.u) * (v + w) ≤ 1 * (v + w) := mul_le_mul_of_nonneg_right (by linarith) hvw.le
    norm_num at hhigh hmax
    linarith

lemma RNear.mono {x : XR} {v e e' : ℝ} (h : RNear F x v e) (hv : 0 ≤ v) (he : e ≤ e') : RNear F x v e' :=
  FNear.mono h (mul_le_mul_of_nonneg_right he hv)

/-- literals -/
lemma lit_near (h : Usual F) {r : ℝ} (h0 : 1 / 8 ≤ r) (h1 : r ≤ 8) :
    RNear F (({ F with ftz := false } : Fmt).round ((binary64 false).round (.fin r))) r (3 * F.u) := by
  have hu := u_pos (F := F)
  have hu2 : F.u ≤ 1 / 1024 := h.u_high.trans (by norm_num)
  have hul := h.u_low
  set F' : Fmt := { F with ftz := false } with hF'
  have hw : F'.WF := ⟨h.bits, h.low, h.low', h.high⟩
  have hu' : F'.u = F.u := rfl
  have hm' : F'.minNormal = F.minNormal := rfl
  have hmax : (2 : ℝ) ^ 30 ≤ 2 ^ F.emax := by exact_mod_cast h.max_low
  have hm := h.m_le (v := r) ((show (2 : ℝ) ^ (-40 : ℤ) ≤ 1 / 8 by norm_num).trans h0)
  have hr : |(binary64 false).rd r - r| ≤ F.u * r := by
    have h2 : (2 : ℝ) ^ (-1022 : ℤ) ≤ r := by
      have : (2 : ℝ) ^ (-1022 : ℤ) ≤ 2 ^ (-3 : ℤ) := zpow_le (by norm_num)
      exact this.trans ((show (2 : ℝ) ^ (-3 : ℤ) ≤ 1 / 8 by norm_num).trans h0)
    exact (rd64_rel h2).trans (mul_le_mul_of_nonneg_right hul (by linarith))
  have hur : F.u * r ≤ 1 / 1024 * r := mul_le_mul_of_nonneg_right hu2 (by linarith)
  have hr' := abs_le.1 hr
  have e1 : (binary64 false).round (.fin r) = .fin ((binary64 false).rd r) := by
    refine round_fin (by linarith) ?_
    have : (2 : ℝ) ^ (5 : ℤ) ≤ 2 ^ (binary64 false).emax := zpow_le (by simp [binary64])
    norm_num at this; linarith
  rw [e1]
  have h2 : FNear F' (F'.ofReal ((binary64 false).rd r)) r (3 * F.u * r) := by
    refine ofReal_fnear hw hr (V := r) (by rw [abs_of_pos (by linarith)]) ?_ ?_
    · rw [hu', hm']
      have : F.u * (r + F.u * r) ≤ F.u * (5 / 4 * r) := mul_le_mul_of_nonneg_left (by linarith) hu.le
      nlinarith only [this, hm, hu, minNormal_pos (F := F), h0]
    · show _ < (2 : ℝ) ^ F.emax
      norm_num at hmax; nlinarith
  obtain ⟨a, ha, ⟨hf, hf2⟩, hn⟩ := h2
  refine ⟨a, ha, ⟨?_, hf2⟩, hn⟩
  have hn' := abs_le.1 hn
  have hrn : F.rnd a = a := rd_rnd (F := F') hf
  have : F.minNormal ≤ a := by
    have h4 := h.min_high; norm_num at h4
    nlinarith [hn'.1]
  rw [rd_normal h.toWF.p1 this, hrn]

/-! ### powers of perturbed numbers -/

lemma npow_pert {x X t : ℝ} (n : ℕ) (hX : 0 < X) (ht0 : 0 ≤ t) (ht : 2 * n * t ≤ 1) (ht1 : t ≤ 1 / 2) (h : |x - X| ≤ t * X) :
    0 < x ∧ |(x ^ n)⁻¹ - (X ^ n)⁻¹| ≤ 2 * n * t * (X ^ n)⁻¹ := by
  have h' := abs_le.1 h
  have hx0 : (1 - t) * X ≤ x := by linarith [h'.1]
  have hx1 : x ≤ (1 + t) * X := by linarith [h'.2]
  have hx : 0 < x := lt_of_lt_of_le (mul_pos (by linarith) hX) hx0
  refine ⟨hx, ?_⟩
  have hXn : 0 < X ^ n := by positivity
  have hxn : 0 < x ^ n := by positivity
  have hnt : 0 ≤ n * t := by positivity
  -- lower bound of the power
  have b1 : (1 - n * t) * X ^ n ≤ x ^ n := by
    have := one_add_mul_le_pow (a := -t) (by linarith) n
    have h2 : (1 - n * t) ≤ (1 - t) ^ n := by rw [show 1 - t = 1 + -t by ring]; linarith
    calc (1 - n * t) * X ^ n ≤ (1 - t) ^ n * X ^ n := mul_le_mul_of_nonneg_right h2 hXn.le
      _ = ((1 - t) * X) ^ n := by rw [mul_pow]
      _ ≤ x ^ n := pow_le_pow_left₀ (mul_nonneg (by linarith) hX.le) hx0 n
  -- upper bound of the power
  have b2 : x ^ n * (1 - n * t) ≤ X ^ n := by
    have := one_add_mul_le_pow (a := -t) (by linarith) n
    have h2 : (1 - n * t) ≤ (1 - t) ^ n := by rw [show 1 - t = 1 + -t by ring]; linarith
    have h3 : (1 + t) ^ n * (1 - t) ^ n ≤ 1 := by
      rw [← mul_pow]; exact pow_le_one₀ (mul_nonneg (by linarith) (by linarith)) (by nlinarith)
    calc x ^ n * (1 - n * t) ≤ ((1 + t) * X) ^ n * (1 - t) ^ n :=
          mul_le_mul (pow_le_pow_left₀ hx.le hx1 n) h2 (by linarith) (by positivity)
      _ = ((1 + t) ^ n * (1 - t) ^ n) * X ^ n := by rw [mul_pow]; ring
      _ ≤ 1 * X ^ n := mul_le_mul_of_nonneg_right h3 hXn.le
      _ = X ^ n := one_mul _
  generalize x ^ n = P at *
  generalize X ^ n = Q at *
  have e : P⁻¹ - Q⁻¹ = (Q - P) * P⁻¹ * Q⁻¹ := by field_simp
  rw [e, abs_mul, abs_of_pos (inv_pos.2 hXn)]
  refine mul_le_mul_of_nonneg_right ?_ (inv_pos.2 hXn).le
  rw [abs_mul, abs_of_pos (inv_pos.2 hxn), mul_inv_le_iff₀ hxn, abs_le]
  constructor <;> nlinarith

lemma rpow_neg_pert {x X t s : ℝ} (hs0 : 0 ≤ s) (hs5 : s ≤ 5) (hX : 0 < X) (ht0 : 0 ≤ t) (ht : t ≤ 1 / 20) (h : |x - X| ≤ t * X) :
    |x ^ (-s) - X ^ (-s)| ≤ 10 * t * X ^ (-s) := by
  have h' := abs_le.1 h
  have hx0 : (1 - t) * X ≤ x := by linarith [h'.1]
  have hx1 : x ≤ (1 + t) * X := by linarith [h'.2]
  have h1t : 0 < 1 - t := by linarith
  have hx : 0 < x := lt_of_lt_of_le (mul_pos h1t hX) hx0
  have hXs : 0 < X ^ (-s) := Real.rpow_pos_of_pos hX _
  have u1 : x ^ (-s) ≤ (1 - t) ^ (-s) * X ^ (-s) := by
    rw [← Real.mul_rpow h1t.le hX.le]
    exact Real.rpow_le_rpow_of_nonpos (mul_pos h1t hX) hx0 (by linarith)
  have u2 : (1 + t) ^ (-s) * X ^ (-s) ≤ x ^ (-s) := by
    rw [← Real.mul_rpow (by linarith) hX.le]
    exact Real.rpow_le_rpow_of_nonpos hx hx1 (by linarith)
  have u3 : (1 - t) ^ (-s) ≤ 1 + 10 * t := by
    calc (1 - t) ^ (-s) ≤ (1 - t) ^ (-5 : ℝ) := Real.rpow_le_rpow_of_exponent_ge h1t (by linarith) (by linarith)
      _ = ((1 - t) ^ 5)⁻¹ := by rw [Real.rpow_neg h1t.le]; norm_cast
      _ ≤ 1 + 10 * t := by
        have := one_add_mul_le_pow (a := -t) (by linarith) 5
        norm_num at this
        rw [inv_le_iff_one_le_mul₀ (by positivity)]
        nlinarith
  have u4 : 1 - 10 * t ≤ (1 + t) ^ (-s) := by
    calc 1 - 10 * t ≤ ((1 + t) ^ 5)⁻¹ := by
          have := one_add_mul_le_pow (a := -t) (by linarith) 5
          norm_num at this
          have h3 : (1 + t) ^ 5 * (1 - t) ^ 5 ≤ 1 := by
            rw [← mul_pow]; exact pow_le_one₀ (mul_nonneg (by linarith) (by linarith)) (by nlinarith)
          have h4 : 0 < (1 + t) ^ 5 := by positivity
          rw [← one_div, le_div_iff₀ h4]
          have h5 : (1 - 10 * t) * (1 + t) ^ 5 ≤ (1 - t) ^ 5 * (1 + t) ^ 5 := mul_le_mul_of_nonneg_right (by nlinarith) h4.le
          linarith
      _ = (1 + t) ^ (-5 : ℝ) := by rw [Real.rpow_neg (by linarith)]; norm_cast
      _ ≤ (1 + t) ^ (-s) := Real.rpow_le_rpow_of_exponent_le (by linarith) (by linarith)
  have a := mul_le_mul_of_nonneg_right u3 hXs.le
  have c := mul_le_mul_of_nonneg_right u4 hXs.le
  rw [abs_le]; constructor <;> linarith

/-- the bracket of the LIGO-I curve -/
def bracket (X : ℝ) : ℝ := (4.49 * X) ^ (-56 : ℤ) + 0.16 * X ^ (-4.52 : ℝ) + 0.52 + 0.32 * X ^ 2

lemma bracket_bounds {X : ℝ} (h0 : 4 / 15 ≤ X) (h1 : X ≤ 200 / 3) : 1 / 2 < bracket X ∧ bracket X ≤ 2000 := by
  have hX : 0 < X := by linarith
  have a0 : 0 < (4.49 * X) ^ (-56 : ℤ) := by positivity
  have b0 : 0 < X ^ (-4.52 : ℝ) := Real.rpow_pos_of_pos hX _
  have a1 : (4.49 * X) ^ (-56 : ℤ) ≤ 1 := zpow_le_one_of_nonpos₀ (by norm_num; linarith) (by norm_num)
  have b1 : X ^ (-4.52 : ℝ) ≤ 1024 := by
    calc X ^ (-4.52 : ℝ) ≤ (1 / 4 : ℝ) ^ (-4.52 : ℝ) := Real.rpow_le_rpow_of_nonpos (by norm_num) (by linarith) (by norm_num)
      _ ≤ (1 / 4 : ℝ) ^ (-5 : ℝ) := Real.rpow_le_rpow_of_exponent_ge (by norm_num) (by norm_num) (by norm_num)
      _ = 1024 := by rw [Real.rpow_neg (by norm_num)]; norm_num
  unfold bracket
  generalize (4.49 * X) ^ (-56 : ℤ) = A at *
  generalize X ^ (-4.52 : ℝ) = B at *
  norm_num
  constructor <;> nlinarith

lemma shape_near (h : Usual F) (lib : LIGOIPow F) (heps : lib.eps ≤ 1 / 1000) {f : ℝ} (h40 : 40 ≤ f) (hf : f ≤ 10000) :
    RNear F (F.add (F.add (F.add
        (lib.pow56 (F.mul (({ F with ftz := false } : Fmt).round ((binary64 false).round (.fin 4.49))) (F.div (.fin f) (.fin 150))))
        (F.mul (({ F with ftz := false } : Fmt).round ((binary64 false).round (.fin 0.16))) (lib.pow452 (F.div (.fin f) (.fin 150)))))
        (({ F with ftz := false } : Fmt).round ((binary64 false).round (.fin 0.52))))
        (F.mul (({ F with ftz := false } : Fmt).round ((binary64 false).round (.fin 0.32)))
          (F.mul (F.div (.fin f) (.fin 150)) (F.div (.fin f) (.fin 150)))))
      (bracket (f / 150)) (4 * lib.eps + 2000 * F.u) := by
  have hu := u_pos (F := F)
  have hu2 : F.u ≤ 1 / 1000000 := h.u_high.trans (by norm_num)
  have hmp := minNormal_pos (F := F)
  have e0 := lib.eps_nonneg
  have hmax : (2 : ℝ) ^ 30 ≤ 2 ^ F.emax := by exact_mod_cast h.max_low
  have hX0 : 4 / 15 ≤ f / 150 := by linarith
  have hX1 : f / 150 ≤ 200 / 3 := by linarith
  have hx : RNear F (F.div (.fin f) (.fin 150)) (f / 150) (3 * F.u) := by
    have e : F.div (.fin f) (.fin 150) = F.ofReal (f / 150) := by unfold Fmt.div; rw [XR.div_fin _ (by norm_num)]; rfl
    rw [e]
    have hm := h.m_le (v := f / 150) ((show (2 : ℝ) ^ (-40 : ℤ) ≤ 4 / 15 by norm_num).trans hX0)
    refine ofReal_fnear h.toWF (e := 0) (V := f / 150) (by simp) (by rw [abs_of_pos (by linarith)]) ?_ ?_
    · nlinarith
    · norm_num at hmax; nlinarith
  generalize F.div (.fin f) (.fin 150) = xx at *
  generalize f / 150 = X at *
  have hXp : 0 < X := by linarith
  have l449 := lit_near h (r := 4.49) (by norm_num) (by norm_num)
  have l016 := lit_near h (r := 0.16) (by norm_num) (by norm_num)
  have l052 := lit_near h (r := 0.52) (by norm_num) (by norm_num)
  have l032 := lit_near h (r := 0.32) (by norm_num) (by norm_num)
  -- the first power
  have hy := rmul h l449 hx (by norm_num) hXp (by linarith) (by linarith) (by linarith) (by linarith)
    (by norm_num; linarith) (by norm_num; linarith)
  have hp1 : FNear F (lib.pow56 (F.mul (({ F with ftz := false } : Fmt).round ((binary64 false).round (.fin 4.49))) xx))
      ((4.49 * X) ^ (-56 : ℤ)) ((4 * lib.eps + 1680 * F.u) * (4.49 * X) ^ (-56 : ℤ) + 2 * F.minNormal) := by
    obtain ⟨y, ey, ⟨yf, -⟩, hy⟩ := hy
    rw [ey]
    have hY : 0 < 4.49 * X := by positivity
    have hy15 : |y - 4.49 * X| ≤ 15 * F.u * (4.49 * X) := hy.trans (mul_le_mul_of_nonneg_right (by linarith) hY.le)
    have hy' := abs_le.1 hy15
    obtain ⟨yp, hpert⟩ := npow_pert 56 hY (t := 15 * F.u) (by positivity) (by push_cast; linarith) (by linarith) hy15
    obtain ⟨r, er, hrf, hr⟩ := lib.pow56_spec y yf (by norm_num at hy' ⊢; nlinarith) (by norm_num at hy' ⊢; nlinarith)
    refine ⟨r, er, hrf, ?_⟩
    have z : ∀ a : ℝ, a ^ (-56 : ℤ) = (a ^ 56)⁻¹ := fun a => by rw [zpow_neg]; norm_cast
    rw [z] at hr ⊢
    have hA : 0 < ((4.49 * X) ^ 56)⁻¹ := by positivity
    push_cast at hpert
    generalize ((4.49 * X) ^ 56)⁻¹ = A at *
    generalize (y ^ 56)⁻¹ = B at *
    have hB : B ≤ 2 * A := by have := (abs_le.1 hpert).2; nlinarith
    have h1 := mul_le_mul_of_nonneg_left hB e0
    have h2 := abs_sub_le r B A
    nlinarith
  have hb0 : 0 < X ^ (-4.52 : ℝ) := Real.rpow_pos_of_pos hXp _
  have hblow : (2 : ℝ) ^ (-36 : ℤ) ≤ X ^ (-4.52 : ℝ) := by
    calc (2 : ℝ) ^ (-36 : ℤ) ≤ (128 : ℝ) ^ (-5 : ℝ) := by rw [Real.rpow_neg (by norm_num)]; norm_num
      _ ≤ (128 : ℝ) ^ (-4.52 : ℝ) := Real.rpow_le_rpow_of_exponent_le (by norm_num) (by norm_num)
      _ ≤ X ^ (-4.52 : ℝ) := Real.rpow_le_rpow_of_nonpos hXp (by linarith) (by norm_num)
  have hbhigh : X ^ (-4.52 : ℝ) ≤ 1024 := by
    calc X ^ (-4.52 : ℝ) ≤ (1 / 4 : ℝ) ^ (-4.52 : ℝ) := Real.rpow_le_rpow_of_nonpos (by norm_num) (by linarith) (by norm_num)
      _ ≤ (1 / 4 : ℝ) ^ (-5 : ℝ) := Real.rpow_le_rpow_of_exponent_ge (by norm_num) (by norm_num) (by norm_num)
      _ = 1024 := by rw [Real.rpow_neg (by norm_num)]; norm_num
  -- the second power
  have hp2 : RNear F (lib.pow452 xx) (X ^ (-4.52 : ℝ)) (2 * lib.eps + 31 * F.u) := by
    obtain ⟨x, ex, ⟨xf, -⟩, hx⟩ := hx
    rw [ex]
    have hx' := abs_le.1 hx
    have hpert := rpow_neg_pert (s := 4.52) (by norm_num) (by norm_num) hXp (t := 3 * F.u) (by positivity) (by linarith) hx
    obtain ⟨r, er, hrf, hr⟩ := lib.pow452_spec x xf (by nlinarith) (by norm_num; nlinarith)
    refine ⟨r, er, hrf, ?_⟩
    have hm := h.m_le (v := X ^ (-4.52 : ℝ)) ((zpow_le (by norm_num)).trans hblow)
    generalize X ^ (-4.52 : ℝ) = A at *
    generalize x ^ (-4.52 : ℝ) = B at *
    have hB : B ≤ 2 * A := by have := (abs_le.1 hpert).2; nlinarith
    have h1 := mul_le_mul_of_nonneg_left hB e0
    have h2 := abs_sub_le r B A
    nlinarith
  have ht2 := rmul h l016 hp2 (by norm_num) hb0 (by linarith) (by linarith) (by linarith) (by linarith)
    (by norm_num at hblow ⊢; linarith) (by norm_num; linarith)
  have hxx := rmul h hx hx hXp hXp (by linarith) (by linarith) (by linarith) (by linarith) (by norm_num; nlinarith) (by norm_num; nlinarith)
  have ht4 := rmul h l032 hxx (by norm_num) (by positivity) (by linarith) (by linarith) (by linarith) (by linarith)
    (by norm_num; nlinarith) (by norm_num; nlinarith)
  have ha0 : 0 < (4.49 * X) ^ (-56 : ℤ) := by positivity
  have ha1 : (4.49 * X) ^ (-56 : ℤ) ≤ 1 := zpow_le_one_of_nonpos₀ (by norm_num; linarith) (by norm_num)
  have hc : (0 : ℝ) < 0.16 * X ^ (-4.52 : ℝ) := by positivity
  unfold bracket
  generalize (4.49 * X) ^ (-56 : ℤ) = A at *
  have hclow : (2 : ℝ) ^ (-40 : ℤ) ≤ 0.16 * X ^ (-4.52 : ℝ) := by
    generalize X ^ (-4.52 : ℝ) = B at *
    norm_num at hblow ⊢; linarith
  have hchigh : 0.16 * X ^ (-4.52 : ℝ) ≤ 200 := by
    generalize X ^ (-4.52 : ℝ) = B at *
    norm_num; linarith
  clear hblow hbhigh hb0 hp2
  generalize 0.16 * X ^ (-4.52 : ℝ) = C at *
  have s1 := radd h hp1 (w := C) (by
      have hm := h.m_le hclow
      have := mul_pos hu ha0
      linarith) (ht2.mono hc.le (by linarith)) ha0 hc (by linarith) (by linarith) (by norm_num; linarith)
  have s2 := radd h (δ := 0) (w := 0.52) (by rw [add_zero]; exact s1) (by positivity) (l052.mono (by norm_num) (by linarith))
    (by positivity) (by norm_num) (by linarith) (by norm_num; linarith) (by norm_num; linarith)
  have s3 := radd h (δ := 0) (w := 0.32 * (X * X)) (by rw [add_zero]; exact s2) (by positivity)
    (ht4.mono (by positivity) (by linarith))
    (by positivity) (by positivity) (by linarith) (by norm_num; nlinarith) (by norm_num; nlinarith)
  rw [show X ^ 2 = X * X by ring]
  exact s3.mono (by positivity) (by linarith)

lemma bracket_low {X : ℝ} (hX : 0 < X) : 0.99 ≤ bracket X := by
  have a0 : 0 < (4.49 * X) ^ (-56 : ℤ) := by positivity
  have hB : 1 - 4.52 * (X - 1) ≤ X ^ (-4.52 : ℝ) := by
    rw [Real.rpow_def_of_pos hX]
    have h1 := Real.add_one_le_exp (Real.log X * (-4.52))
    have h2 := Real.log_le_sub_one_of_pos hX
    linarith
  unfold bracket
  generalize (4.49 * X) ^ (-56 : ℤ) = A at *
  generalize X ^ (-4.52 : ℝ) = B at *
  norm_num at hB ⊢
  nlinarith [sq_nonneg (X - 1.13)]

/-- the constant in double precision -/
lemma scale_val : ∃ c : ℝ, (binary64 false).mul ((binary64 false).round (.fin 1e-46)) (.fin 9) = .fin c
    ∧ (binary64 false).rd c = c ∧ |c - 1e-46 * 9| ≤ 4 * 2 ^ (-53 : ℤ) * (1e-46 * 9) := by
  have hlow : (2 : ℝ) ^ (-1022 : ℤ) ≤ 1e-46 := (zpow_le (show (-1022 : ℤ) ≤ -200 by norm_num)).trans (by norm_num)
  have hmax : (2 : ℝ) ^ (0 : ℤ) ≤ 2 ^ (binary64 false).emax := zpow_le (by simp [binary64])
  rw [zpow_zero] at hmax
  have h1 := rd64_rel hlow
  have h1' := abs_le.1 h1
  have e1 : (binary64 false).round (.fin 1e-46) = .fin ((binary64 false).rd 1e-46) := by
    refine round_fin (by norm_num) (lt_of_lt_of_le ?_ hmax)
    norm_num at h1' ⊢; linarith
  rw [e1]
  generalize (binary64 false).rd 1e-46 = a at *
  have ha : 1e-46 ≤ 2 * a := by norm_num at h1' ⊢; linarith
  have hlow2 : (2 : ℝ) ^ (-1022 : ℤ) ≤ a * 9 := hlow.trans (by linarith)
  have h2 := rd64_rel hlow2
  have h2' := abs_le.1 h2
  have e2 : (binary64 false).mul (.fin a) (.fin 9) = .fin ((binary64 false).rd (a * 9)) := by
    refine mul_fin (by linarith) (lt_of_lt_of_le ?_ hmax)
    norm_num at h1' h2' ⊢; linarith
  refine ⟨_, e2, rd_idem (wf64 false).p1 _, ?_⟩
  rw [abs_le]
  norm_num at h1' h2' ⊢
  constructor <;> linarith

lemma rnd32_sub (b : Bool) {s : ℝ} (h0 : 0 < s) (h1 : s < 2 ^ 24) :
    (binary32 b).rnd (2 ^ (-149 : ℤ) * s) = rne s * 2 ^ (-149 : ℤ) := by
  have hp := two_zpow_pos (-149)
  have hl : (binary32 b).lsb (2 ^ (-149 : ℤ) * s) = -149 := by
    refine max_eq_right ?_
    have h := log_le_abs (x := 2 ^ (-149 : ℤ) * s) (by positivity)
    rw [abs_of_pos (a := 2 ^ (-149 : ℤ) * s) (by positivity)] at h ⊢
    have h3 : (2 : ℝ) ^ (-149 : ℤ) * s < 2 ^ (-125 : ℤ) := by
      calc (2 : ℝ) ^ (-149 : ℤ) * s < 2 ^ (-149 : ℤ) * 2 ^ 24 := mul_lt_mul_of_pos_left h1 hp
        _ = 2 ^ (-125 : ℤ) := by norm_num
    have := (zpow_lt_zpow_iff_right₀ (one_lt_two (α := ℝ))).1 (h.trans_lt h3)
    simp only [binary32]; omega
  unfold Fmt.rnd
  rw [hl, mul_div_cancel_left₀ _ hp.ne']

lemma scale32 (b : Bool) : ({ binary32 b with ftz := false } : Fmt).round
    ((binary64 false).mul ((binary64 false).round (.fin 1e-46)) (.fin 9)) = .fin (2 ^ (-149 : ℤ)) := by
  obtain ⟨c, e, -, hc⟩ := scale_val
  have hc' := abs_le.1 hc
  rw [e]
  have hp := two_zpow_pos (-149)
  have h6 : 0.6 * 2 ^ (-149 : ℤ) ≤ c := by norm_num at hc' ⊢; linarith
  have h7 : c ≤ 0.7 * 2 ^ (-149 : ℤ) := by norm_num at hc' ⊢; linarith
  have hs : c = 2 ^ (-149 : ℤ) * (c / 2 ^ (-149 : ℤ)) := by field_simp
  have h6' : 0.6 ≤ c / 2 ^ (-149 : ℤ) := by rwa [le_div_iff₀ hp]
  have h7' : c / 2 ^ (-149 : ℤ) ≤ 0.7 := by rwa [div_le_iff₀ hp]
  have hr : (binary32 false).rd c = 2 ^ (-149 : ℤ) := by
    unfold Fmt.rd
    rw [if_neg (by simp [binary32]), hs, rnd32_sub false (by norm_num at h6'; linarith) (by norm_num at h7' ⊢; linarith),
      rne_eq (n := 1) (by rw [abs_lt]; push_cast; norm_num at h6' h7' ⊢; constructor <;> linarith), Int.cast_one, one_mul]
  show (binary32 false).round (.fin c) = _
  rw [round_fin (by norm_num at h6; linarith) (by rw [hr]; exact zpow_lt_zpow_right₀ one_lt_two (by simp [binary32])), hr]

lemma rd32_flush {x : ℝ} (h0 : 0 ≤ x) (h : x < 2 ^ (-127 : ℤ)) : (binary32 true).rd x = 0 := by
  unfold Fmt.rd
  refine if_pos ⟨rfl, ?_⟩
  have hw := wf32 true
  have e : (binary32 true).minNormal = 2 ^ (-126 : ℤ) := by simp [Fmt.minNormal, binary32]
  rw [e, abs_of_nonneg (rnd_nonneg h0)]
  rcases h0.eq_or_lt with rfl | h0
  · rw [rnd_zero]; exact two_zpow_pos _
  have hp := two_zpow_pos (-149)
  have h1 : x / 2 ^ (-149 : ℤ) < 2 ^ 22 := by
    rw [div_lt_iff₀ hp]; exact h.trans_le (by norm_num)
  have hs : x = 2 ^ (-149 : ℤ) * (x / 2 ^ (-149 : ℤ)) := by field_simp
  rw [hs, rnd32_sub true (by positivity) (h1.trans (by norm_num))]
  have : rne (x / 2 ^ (-149 : ℤ)) ≤ 2 ^ 22 := rne_le_int (by push_cast; norm_num at h1 ⊢; exact h1.le)
  have h2 : (rne (x / 2 ^ (-149 : ℤ)) : ℝ) ≤ 2 ^ 22 := by exact_mod_cast this
  calc _ ≤ (2 : ℝ) ^ 22 * 2 ^ (-149 : ℤ) := mul_le_mul_of_nonneg_right h2 hp.le
    _ < 2 ^ (-126 : ℤ) := by norm_num

lemma ligoi_exact {f : ℝ} (h : 40 < f) : Ripple.Sn_LIGOI f = .fin (1e-46 * 9 * bracket (f / 150)) := by
  unfold Ripple.Sn_LIGOI bracket; simp only; rw [if_pos h]

lemma u32 (b : Bool) : (binary32 b).u = 2 ^ (-24 : ℤ) := by simp [Fmt.u, binary32]
lemma u64 (b : Bool) : (binary64 b).u = 2 ^ (-53 : ℤ) := by simp [Fmt.u, binary64]

lemma ligoi32_shape (b : Bool) (lib : LIGOIPow (binary32 b)) (heps : lib.eps ≤ 1 / 10000) {f : ℝ} (h40 : 40 < f) (hf : f ≤ 10000) :
    ∃ s : ℝ, Sn_LIGOI (binary32 b) lib f = (binary32 b).mul (.fin (2 ^ (-149 : ℤ))) (.fin s)
      ∧ |s - bracket (f / 150)| ≤ 1 / 1000 * bracket (f / 150) := by
  obtain ⟨s, es, -, hs⟩ := shape_near (usual32 b) lib (by linarith) h40.le hf
  refine ⟨s, ?_, hs.trans (mul_le_mul_of_nonneg_right ?_ ?_)⟩
  · unfold Sn_LIGOI
    simp only
    rw [if_pos h40, es, scale32]
  · rw [u32]; norm_num; linarith
  · have := bracket_low (X := f / 150) (by linarith); norm_num at this; linarith

lemma ligoi_flushed (lib : LIGOIPow (binary32 true)) (heps : lib.eps ≤ 1 / 10000) {f : ℝ} (h40 : 40 < f) (hf : f ≤ 10000) :
    Sn_LIGOI (binary32 true) lib f = .fin 0 := by
  obtain ⟨s, e, hs⟩ := ligoi32_shape true lib heps h40 hf
  have hb := bracket_bounds (X := f / 150) (by linarith) (by linarith)
  have hs' := abs_le.1 hs
  have hp := two_zpow_pos (-149)
  have hs0 : 0 ≤ s := by linarith
  have hr : (binary32 true).rd (2 ^ (-149 : ℤ) * s) = 0 := by
    refine rd32_flush (by positivity) ?_
    calc (2 : ℝ) ^ (-149 : ℤ) * s ≤ 2 ^ (-149 : ℤ) * 2 ^ 20 := mul_le_mul_of_nonneg_left (by norm_num; linarith) hp.le
      _ < 2 ^ (-127 : ℤ) := by norm_num
  rw [e, mul_fin (by positivity) (by rw [hr]; exact two_zpow_pos _), hr]

lemma ligoi_subnormal (lib : LIGOIPow (binary32 false)) (heps : lib.eps ≤ 1 / 10000) {f : ℝ} (h40 : 40 < f) (hf : f ≤ 10000) :
    ∃ k : ℤ, Sn_LIGOI (binary32 false) lib f = .fin (k * 2 ^ (-149 : ℤ)) ∧ 1 ≤ k
      ∧ 0.66 * bracket (f / 150) ≤ k ∧ k ≤ 1.34 * bracket (f / 150) := by
  obtain ⟨s, e, hs⟩ := ligoi32_shape false lib heps h40 hf
  have hb := bracket_bounds (X := f / 150) (by linarith) (by linarith)
  have hb' := bracket_low (X := f / 150) (by linarith)
  generalize bracket (f / 150) = p at *
  have hs' := abs_le.1 hs
  have hp := two_zpow_pos (-149)
  have hs0 : 0.9 < s := by norm_num at hb' ⊢; linarith
  have hs1 : s < 2 ^ 20 := by norm_num; linarith
  have hr : (binary32 false).rd (2 ^ (-149 : ℤ) * s) = rne s * 2 ^ (-149 : ℤ) := by
    unfold Fmt.rd
    rw [if_neg (by simp [binary32]), rnd32_sub false (by norm_num at hs0; linarith) (hs1.trans (by norm_num))]
  have he := abs_le.1 (rne_err s)
  have hk : 1 ≤ rne s := by
    have : (0 : ℝ) < rne s := by norm_num at hs0; linarith
    have : 0 < rne s := by exact_mod_cast this
    omega
  have hk20 : (rne s : ℝ) ≤ 2 ^ 21 := by norm_num at hs1 ⊢; linarith
  refine ⟨rne s, ?_, hk, ?_⟩
  · rw [e, mul_fin (mul_nonneg hp.le (by norm_num at hs0; linarith)) ?_, hr]
    rw [hr]
    calc (rne s : ℝ) * 2 ^ (-149 : ℤ) ≤ 2 ^ 21 * 2 ^ (-149 : ℤ) := mul_le_mul_of_nonneg_right hk20 hp.le
      _ < 2 ^ (128 : ℤ) := by norm_num
  · norm_num at hb' ⊢
    rcases eq_or_lt_of_le hk with h1 | h1
    · rw [← h1] at he ⊢
      push_cast at he ⊢
      constructor <;> linarith
    · have h2 : (2 : ℝ) ≤ rne s := by exact_mod_cast h1
      constructor <;> linarith

lemma ligoi_double (b : Bool) (lib : LIGOIPow (binary64 b)) (heps : lib.eps ≤ 1 / 1000) {f : ℝ} (h40 : 40 < f) (hf : f ≤ 10000) :
    ∃ r : ℝ, Sn_LIGOI (binary64 b) lib f = .fin r ∧ (binary64 b).IsFloat r
      ∧ |r - 1e-46 * 9 * bracket (f / 150)| ≤ (4 * lib.eps + 3e-13) * (1e-46 * 9 * bracket (f / 150)) := by
  obtain ⟨s, es, -, hs⟩ := shape_near (usual64 b) lib heps h40.le hf
  obtain ⟨c, ec, hc0, hc⟩ := scale_val
  have e1 : ({ binary64 b with ftz := false } : Fmt).round (.fin c) = .fin c := by
    show (binary64 false).round (.fin c) = _
    have hc' := abs_le.1 hc
    have hmax : (2 : ℝ) ^ (0 : ℤ) ≤ 2 ^ (binary64 false).emax := zpow_le (by simp [binary64])
    rw [zpow_zero] at hmax
    rw [round_fin (by norm_num at hc'; linarith) (by rw [hc0]; norm_num at hc'; linarith), hc0]
  have eS : Sn_LIGOI (binary64 b) lib f = (binary64 b).mul (.fin c) (.fin s) := by
    unfold Sn_LIGOI
    simp only
    rw [if_pos h40, es, ec, e1]
  have hb := bracket_bounds (X := f / 150) (by linarith) (by linarith)
  have he0 := lib.eps_nonneg
  rw [u64] at hs
  generalize bracket (f / 150) = p at *
  generalize lib.eps = ε at *
  rw [eS]
  have h1 : |c * s - 1e-46 * 9 * p| ≤ (4 * ε + 2008 * 2 ^ (-53 : ℤ)) * (1e-46 * 9 * p) := by
    have e : c * s - 1e-46 * 9 * p = (c - 1e-46 * 9) * (s - p) + (c - 1e-46 * 9) * p + 1e-46 * 9 * (s - p) := by ring
    rw [e]
    refine (abs_add_three _ _ _).trans ?_
    have hp0 : 0 < p := by linarith
    rw [abs_mul, abs_mul, abs_mul, abs_of_pos hp0, abs_of_pos (show (0 : ℝ) < 1e-46 * 9 by norm_num)]
    have hs2 : |s - p| ≤ 1 * p := hs.trans (mul_le_mul_of_nonneg_right (by norm_num; linarith) hp0.le)
    have a1 := mul_le_mul hc hs2 (abs_nonneg _) (by positivity)
    have a2 := mul_le_mul_of_nonneg_right hc hp0.le
    have a3 := mul_le_mul_of_nonneg_left hs (show (0 : ℝ) ≤ 1e-46 * 9 by norm_num)
    refine (add_le_add (add_le_add a1 a2) a3).trans (le_of_eq (by ring))
  obtain ⟨w, hw⟩ : ∃ w : ℝ, w = 1e-46 * 9 * p := ⟨_, rfl⟩
  rw [← hw] at h1 ⊢
  have hw0 : 4e-46 ≤ w := by rw [hw]; norm_num; linarith
  have hw1 : w ≤ 1 / 1000 := by rw [hw]; norm_num; linarith
  have hwp : 0 < w := by norm_num at hw0; linarith
  have h1' := abs_le.1 h1
  have hεw : ε * w ≤ 1 / 1000 * w := mul_le_mul_of_nonneg_right heps hwp.le
  have hεw0 : 0 ≤ ε * w := mul_nonneg he0 hwp.le
  have hlow : (2 : ℝ) ^ (-1022 : ℤ) ≤ c * s := by
    refine (zpow_le (show (-1022 : ℤ) ≤ -200 by norm_num)).trans ?_
    norm_num at h1' hw0 ⊢; linarith
  have h2 := rd64_rel hlow
  rw [← rd64_eq b hlow] at h2
  have h2' := abs_le.1 h2
  have hlt : |(binary64 b).rd (c * s)| < 2 ^ (binary64 b).emax := by
    have hmax : (2 : ℝ) ^ (0 : ℤ) ≤ 2 ^ (binary64 b).emax := zpow_le (by simp [binary64])
    rw [zpow_zero] at hmax
    refine lt_of_lt_of_le (abs_lt.2 ?_) hmax
    norm_num at h1' h2'
    constructor <;> linarith
  refine ⟨_, mul_fin ((two_zpow_pos _).le.trans hlow) (abs_lt.1 hlt).2, ⟨rd_idem (wf64 b).p1 _, hlt⟩, ?_⟩
  rw [abs_le]
  norm_num at h1' h2' ⊢
  constructor <;> linarith

/-- correctly rounded powers meet the specification -/
def roundedPow (h : Usual F) : LIGOIPow F where
  pow56 x := match x with | .fin y => F.ofReal (y ^ (-56 : ℤ)) | _ => .nan
  pow452 x := match x with | .fin y => F.ofReal (y ^ (-4.52 : ℝ)) | _ => .nan
  eps := F.u
  eps_nonneg := u_pos.le
  pow56_spec y _ h1 _ := by
    have a0 : 0 < y ^ (-56 : ℤ) := zpow_pos (by linarith) _
    have a1 : y ^ (-56 : ℤ) ≤ 1 := zpow_le_one_of_nonpos₀ h1 (by norm_num)
    have hmax : (2 : ℝ) ^ 30 ≤ 2 ^ F.emax := by exact_mod_cast h.max_low
    have hu := h.u_high
    have hm := h.min_high
    refine ofReal_fnear h.toWF (e := 0) (V := y ^ (-56 : ℤ)) (by simp) (by rw [abs_of_pos a0]) (by linarith) ?_
    norm_num at hmax hu hm
    nlinarith
  pow452_spec x _ h1 _ := by
    have hX : 0 < x := by linarith
    have a0 : 0 < x ^ (-4.52 : ℝ) := Real.rpow_pos_of_pos hX _
    have a1 : x ^ (-4.52 : ℝ) ≤ 1024 := by
      calc x ^ (-4.52 : ℝ) ≤ (1 / 4 : ℝ) ^ (-4.52 : ℝ) := Real.rpow_le_rpow_of_nonpos (by norm_num) (by linarith) (by norm_num)
        _ ≤ (1 / 4 : ℝ) ^ (-5 : ℝ) := Real.rpow_le_rpow_of_exponent_ge (by norm_num) (by norm_num) (by norm_num)
        _ = 1024 := by rw [Real.rpow_neg (by norm_num)]; norm_num
    have hmax : (2 : ℝ) ^ 30 ≤ 2 ^ F.emax := by exact_mod_cast h.max_low
    have hu := h.u_high
    have hm := h.min_high
    refine ofReal_fnear h.toWF (e := 0) (V := x ^ (-4.52 : ℝ)) (by simp) (by rw [abs_of_pos a0]) (by linarith) ?_
    generalize x ^ (-4.52 : ℝ) = A at *
    norm_num at hmax hu hm
    nlinarith

end
end Fp
end Ripple

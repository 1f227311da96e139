/-
  The function computed by the spline model is the not-a-knot cubic spline of the tables; lookups in the resampled tables.
-/
import Verif.Proofs.QNM
import Verif.Spec.Spline
import Mathlib.Analysis.Calculus.ContDiff.Deriv
import Mathlib.Analysis.Calculus.ContDiff.Polynomial
import Mathlib.Analysis.Calculus.Deriv.Pow

namespace Ripple.QNMData
open Scipy

/-! ### truncated cubes -/

lemma plus_deriv (n : ℕ) (u : ℝ) : HasDerivAt (fun u : ℝ => max u 0 ^ (n + 2)) ((n + 2) * max u 0 ^ (n + 1)) u := by
  rcases lt_trichotomy u 0 with h | h | h
  · rw [max_eq_right h.le, zero_pow (by omega), mul_zero]
    refine (hasDerivAt_const u (0 : ℝ)).congr_of_eventuallyEq ?_
    filter_upwards [Iio_mem_nhds h] with v hv
    rw [max_eq_right (le_of_lt hv), zero_pow (by omega)]
  · subst h
    rw [max_self, zero_pow (by omega), mul_zero]
    rw [hasDerivAt_iff_isLittleO]
    simp only [max_self, sub_zero, smul_zero]
    rw [zero_pow (by omega)]
    simp only [sub_zero]
    refine Asymptotics.IsBigO.trans_isLittleO (g := fun v : ℝ => v ^ (n + 2)) ?_ ?_
    · refine Asymptotics.IsBigO.of_bound 1 (Filter.Eventually.of_forall fun v => ?_)
      rw [one_mul, Real.norm_eq_abs, Real.norm_eq_abs, abs_pow, abs_pow]
      refine pow_le_pow_left₀ (abs_nonneg _) ?_ _
      rw [abs_of_nonneg (le_max_right _ _)]
      exact max_le (le_abs_self _) (abs_nonneg _)
    · simpa using (Asymptotics.isLittleO_pow_pow (𝕜 := ℝ) (show 1 < n + 2 by omega))
  · rw [max_eq_left h.le]
    have := hasDerivAt_pow (n + 2) u
    refine (this.congr_of_eventuallyEq ?_).congr_deriv (by push_cast; simp)
    filter_upwards [Ioi_mem_nhds h] with v hv
    rw [max_eq_left (le_of_lt hv)]

lemma plus_C2 : ContDiff ℝ 2 fun u : ℝ => max u 0 ^ 3 := by
  have d1 : deriv (fun u : ℝ => max u 0 ^ 3) = fun u => 3 * max u 0 ^ 2 := by
    funext u
    rw [(plus_deriv 1 u).deriv]
    norm_num
  have d2 : deriv (fun u : ℝ => 3 * max u 0 ^ 2) = fun u => 3 * (2 * max u 0) := by
    funext u
    rw [((plus_deriv 0 u).const_mul 3).deriv]
    norm_num
  rw [show (2 : WithTop ℕ∞) = 1 + 1 by norm_num, contDiff_succ_iff_deriv]
  refine ⟨fun u => (plus_deriv 1 u).differentiableAt, by simp, ?_⟩
  rw [d1, contDiff_one_iff_deriv, d2]
  exact ⟨fun u => ((plus_deriv 0 u).const_mul 3).differentiableAt, by fun_prop⟩

/-! ### the knot conditions -/

/-- slopes in scaled form -/
lemma herm_expand (h y0 y1 m0 m1 u : ℝ) : herm h y0 y1 m0 m1 u =
    y0 + m0 * u + (3 * ((y1 - y0) / h) - 2 * m0 - m1) / h * u ^ 2 + (m0 + m1 - 2 * ((y1 - y0) / h)) / h / h * u ^ 3 := by
  unfold herm; ring

lemma herm_shift {h : ℝ} (hh : h ≠ 0) (y0 y1 m0 m1 w : ℝ) : herm h y0 y1 m0 m1 (h + w) =
    y1 + m1 * w + (m0 + 2 * m1 - 3 * ((y1 - y0) / h)) / h * w ^ 2 + (m0 + m1 - 2 * ((y1 - y0) / h)) / h / h * w ^ 3 := by
  unfold herm
  field_simp
  ring

/-- cubic coefficient of a cell -/
noncomputable def lead (y : List ℝ) (i : ℕ) : ℝ :=
  (slopes knots y i + slopes knots y (i + 1) - 2 * ((y.getD (i + 1) 0 - y.getD i 0) / (H i / 1000))) / (H i / 1000) / (H i / 1000)

/-- quadratic coefficient of a cell -/
noncomputable def quad (y : List ℝ) (i : ℕ) : ℝ :=
  (3 * ((y.getD (i + 1) 0 - y.getD i 0) / (H i / 1000)) - 2 * slopes knots y i - slopes knots y (i + 1)) / (H i / 1000)

lemma piece_expand (y : List ℝ) (i : ℕ) (hi : i < 1002) (u : ℝ) :
    piece knots y i u = y.getD i 0 + slopes knots y i * u + quad y i * u ^ 2 + lead y i * u ^ 3 := by
  rw [piece_eq, herm_expand, dx_knots i hi]
  rfl

/-- second derivatives agree at the interior knots -/
lemma quad_match (y : List ℝ) (k : ℕ) (hk : k + 1 < 1002) :
    (slopes knots y k + 2 * slopes knots y (k + 1) - 3 * ((y.getD (k + 1) 0 - y.getD k 0) / (H k / 1000))) / (H k / 1000) =
      quad y (k + 1) := by
  have hr := slopes_row y (k + 1) (by omega)
  rw [rhs_mid y (k + 1) (by omega) (by omega) (by omega)] at hr
  unfold row at hr
  rw [if_neg (by omega), if_neg (by omega), Nat.add_sub_cancel] at hr
  unfold quad
  have h1 := (H_pos k).ne'
  have h2 := (H_pos (k + 1)).ne'
  field_simp at hr ⊢
  linarith

/-- the spline around a knot -/
lemma spline_around (y : List ℝ) (k : ℕ) (hk : k + 1 < 1002) {v : ℝ} (h1 : knots.getD k 0 ≤ v)
    (h2 : v ≤ knots.getD (k + 2) 0) :
    CubicSpline knots y v = y.getD (k + 1) 0 + slopes knots y (k + 1) * (v - knots.getD (k + 1) 0) +
      quad y (k + 1) * (v - knots.getD (k + 1) 0) ^ 2 + lead y k * (v - knots.getD (k + 1) 0) ^ 3 +
      (lead y (k + 1) - lead y k) * max (v - knots.getD (k + 1) 0) 0 ^ 3 := by
  rcases le_total v (knots.getD (k + 1) 0) with h | h
  · rw [spline_cell y k (by omega) h1 h, max_eq_right (by linarith), piece_eq]
    have hp : dx knots k ≠ 0 := by rw [dx_knots k (by omega)]; have := H_pos k; positivity
    rw [show v - knots.getD k 0 = dx knots k + (v - knots.getD (k + 1) 0) by unfold dx; ring, herm_shift hp,
      dx_knots k (by omega), quad_match y k hk]
    unfold lead
    ring
  · rw [spline_cell y (k + 1) hk h h2, max_eq_left (by linarith), piece_expand y (k + 1) hk]
    ring

lemma lead_first (y : List ℝ) : lead y 1 = lead y 0 := by
  have r0 := slopes_row y 0 (by norm_num)
  have r1 := slopes_row y 1 (by norm_num)
  rw [rhs0] at r0
  rw [rhs_mid y 1 (by omega) (by omega) (by omega)] at r1
  unfold lead
  unfold row at r0 r1
  simp only [H] at r1 ⊢
  norm_num only [Nat.reduceAdd, if_true, if_false, or_false, false_or, true_or, or_true] at r0 r1 ⊢
  linarith

lemma lead_last (y : List ℝ) : lead y 1001 = lead y 1000 := by
  have r0 := slopes_row y 1002 (by norm_num)
  have r1 := slopes_row y 1001 (by norm_num)
  rw [rhs1002] at r0
  rw [rhs_mid y 1001 (by omega) (by omega) (by omega)] at r1
  unfold lead
  unfold row at r0 r1
  simp only [H] at r1 ⊢
  norm_num only [Nat.reduceAdd, if_true, if_false, or_false, false_or, true_or, or_true] at r0 r1 ⊢
  linarith

lemma cubicOn_of (S : ℝ → ℝ) (a b x c0 c1 c2 c3 : ℝ)
    (h : ∀ v, a ≤ v → v ≤ b → S v = c0 + c1 * (v - x) + c2 * (v - x) ^ 2 + c3 * (v - x) ^ 3) : CubicOn S a b :=
  ⟨c0 - c1 * x + c2 * x ^ 2 - c3 * x ^ 3, c1 - 2 * c2 * x + 3 * c3 * x ^ 2, c2 - 3 * c3 * x, c3,
    fun v h1 h2 => by rw [h v h1 h2]; ring⟩

lemma notAKnot (y : List ℝ) : NotAKnotSpline knots y (CubicSpline knots y) where
  through k hk := spline_knot y k (by rwa [knots_length] at hk)
  cubic k hk := by
    rw [knots_length] at hk
    exact cubicOn_of _ _ _ (knots.getD k 0) _ _ _ _ fun v h1 h2 => by
      rw [spline_cell y k (by omega) h1 h2, piece_expand y k (by omega)]
  smooth := by
    rw [knots_length]
    intro v hv
    refine ContDiffAt.contDiffWithinAt ?_
    obtain ⟨h1, h2⟩ := hv
    have key : ∀ k, k + 1 < 1002 → knots.getD k 0 < v → v < knots.getD (k + 2) 0 → ContDiffAt ℝ 2 (CubicSpline knots y) v := by
      intro k hk a b
      have hC : ContDiff ℝ 2 fun v => y.getD (k + 1) 0 + slopes knots y (k + 1) * (v - knots.getD (k + 1) 0) +
          quad y (k + 1) * (v - knots.getD (k + 1) 0) ^ 2 + lead y k * (v - knots.getD (k + 1) 0) ^ 3 +
          (lead y (k + 1) - lead y k) * max (v - knots.getD (k + 1) 0) 0 ^ 3 := by
        have hm : ContDiff ℝ 2 fun v : ℝ => max (v - knots.getD (k + 1) 0) 0 ^ 3 :=
          plus_C2.comp (contDiff_id.sub contDiff_const)
        have hl : ContDiff ℝ 2 fun v : ℝ => v - knots.getD (k + 1) 0 := contDiff_id.sub contDiff_const
        exact (((contDiff_const.add (contDiff_const.mul hl)).add (contDiff_const.mul (hl.pow 2))).add
          (contDiff_const.mul (hl.pow 3))).add (contDiff_const.mul hm)
      refine hC.contDiffAt.congr_of_eventuallyEq ?_
      filter_upwards [Ioo_mem_nhds a b] with w hw
      exact spline_around y k hk hw.1.le hw.2.le
    obtain ⟨i, hi, a, b⟩ := cell_exists (v := v) (by rw [← knot_first]; exact h1.le) (by rw [← knot_last]; exact h2)
    rcases i with _ | i
    · exact key 0 (by norm_num) h1 (b.trans (good.lt le_rfl (by norm_num) (by rw [knots_length]; norm_num)))
    · exact key i hi (lt_of_lt_of_le (good.lt le_rfl (Nat.lt_succ_self i) (by rw [knots_length]; omega)) a) b
  first := cubicOn_of _ _ _ (knots.getD 1 0) _ _ _ _ fun v h1 h2 => by
    rw [spline_around y 0 (by norm_num) h1 h2, lead_first, sub_self, zero_mul, add_zero]
  last := by
    rw [knots_length]
    exact cubicOn_of _ _ _ (knots.getD 1001 0) _ _ _ _ fun v h1 h2 => by
      rw [spline_around y 1000 (by norm_num) h1 h2, lead_last, sub_self, zero_mul, add_zero]

/-! ### Lipschitz bounds -/

/-- Lipschitz bound of a piece without assumption on the slopes -/
lemma herm_lip {h : ℝ} (hh : 0 < h) {y0 y1 m0 m1 L : ℝ} (hL : |m0| + |m1| + 3 / 2 * |(y1 - y0) / h| ≤ L)
    {u v : ℝ} (hu : 0 ≤ u) (huv : u < v) (hv : v ≤ h) :
    |herm h y0 y1 m0 m1 v - herm h y0 y1 m0 m1 u| ≤ L * (v - u) := by
  obtain ⟨c, hc, e⟩ := exists_deriv_eq_slope (herm h y0 y1 m0 m1) huv
    (fun x _ => (herm_deriv hh.ne' y0 y1 m0 m1 x).continuousAt.continuousWithinAt)
    (fun x _ => (herm_deriv hh.ne' y0 y1 m0 m1 x).differentiableAt.differentiableWithinAt)
  rw [(herm_deriv hh.ne' y0 y1 m0 m1 c).deriv] at e
  have hd : 0 < v - u := by linarith
  have a : 0 ≤ c / h := div_nonneg (by linarith [hc.1]) hh.le
  have b : c / h ≤ 1 := by rw [div_le_one hh]; linarith [hc.2]
  rw [eq_div_iff hd.ne'] at e
  rw [← e, abs_mul, abs_of_pos hd]
  refine mul_le_mul_of_nonneg_right (le_trans ?_ hL) hd.le
  generalize c / h = t at *
  generalize (y1 - y0) / h = s at *
  have w0 : |(1 - t) * (1 - 3 * t)| ≤ 1 := by rw [abs_le]; constructor <;> nlinarith
  have w1 : |t * (3 * t - 2)| ≤ 1 := by rw [abs_le]; constructor <;> nlinarith
  have w2 : |6 * t * (1 - t)| ≤ 3 / 2 := by
    rw [abs_le]; constructor <;> nlinarith [sq_nonneg (t - 1 / 2), mul_nonneg a (show 0 ≤ 1 - t by linarith)]
  rw [show m0 * (1 - t) ^ 2 + m1 * t ^ 2 + 2 * t * (1 - t) * (3 * s - m0 - m1) =
    m0 * ((1 - t) * (1 - 3 * t)) + m1 * (t * (3 * t - 2)) + s * (6 * t * (1 - t)) by ring]
  refine (abs_add_le _ _).trans (add_le_add ((abs_add_le _ _).trans (add_le_add ?_ ?_)) ?_)
  · rw [abs_mul]; exact mul_le_of_le_one_right (abs_nonneg _) w0
  · rw [abs_mul]; exact mul_le_of_le_one_right (abs_nonneg _) w1
  · rw [abs_mul, mul_comm]; exact mul_le_mul_of_nonneg_right w2 (abs_nonneg _)

/-- cell with slopes at most 8.4 in absolute value -/
def lipOK (x0 x1 y0 y1 m0 m1 : Int) : Bool :=
  decide (2 * (x1 - x0) * (|m0| + |m1| + 40) + 3 * |y1 - y0| ≤ 2 * (x1 - x0) * 840000)

lemma lipdamp : triples (fun x0 x1 x2 y0 y1 y2 m0 m1 m2 => lipOK x0 x1 y0 y1 m0 m1 && lipOK x1 x2 y1 y2 m1 m2)
    a fdamp QNMCert.mdamp = true := by decide +kernel

lemma piecedamp_lip (i : ℕ) (hi : i < 1002) {u v : ℝ} (hu : 0 ≤ u) (huv : u < v) (hv : v ≤ dx knots i) :
    |piece knots valdamp i v - piece knots valdamp i u| ≤ 8.4 * (v - u) := by
  have c0 := abs_le.1 (slopes_close fdamp_length mdamp_length resdamp enddamp i (by omega))
  have c1 := abs_le.1 (slopes_close fdamp_length mdamp_length resdamp enddamp (i + 1) (by omega))
  have hp := pairs_sound lipOK fdamp_length mdamp_length lipdamp i hi
  simp only [lipOK, decide_eq_true_eq] at hp
  have p' := (Int.cast_le (R := ℝ)).2 hp
  push_cast at p'
  rw [X_diff i hi] at p'
  rw [piece_eq, piece_eq]
  rw [dx_knots i hi] at hv ⊢
  have hH := H_pos i
  change -20 ≤ slopes knots valdamp i * 100000 - _ ∧ slopes knots valdamp i * 100000 - _ ≤ 20 at c0
  change -20 ≤ slopes knots valdamp (i + 1) * 100000 - _ ∧ slopes knots valdamp (i + 1) * 100000 - _ ≤ 20 at c1
  have e : |(valdamp.getD (i + 1) 0 - valdamp.getD i 0) / (H i / 1000)| =
      |((fdamp.getD (i + 1) 0 : ℤ) : ℝ) - ((fdamp.getD i 0 : ℤ) : ℝ)| / H i / 100000 := by
    rw [valdamp_getD, valdamp_getD, ← sub_div, abs_div, abs_div, abs_of_pos (show 0 < H i / 1000 by positivity),
      abs_of_pos (show (0 : ℝ) < 100000000 by norm_num)]
    field_simp
    ring
  refine herm_lip (by positivity) ?_ hu huv hv
  rw [e]
  generalize slopes knots valdamp i = s0 at *
  generalize slopes knots valdamp (i + 1) = s1 at *
  generalize ((QNMCert.mdamp.getD i 0 : ℤ) : ℝ) = n0 at *
  generalize ((QNMCert.mdamp.getD (i + 1) 0 : ℤ) : ℝ) = n1 at *
  generalize |((fdamp.getD (i + 1) 0 : ℤ) : ℝ) - ((fdamp.getD i 0 : ℤ) : ℝ)| = d at *
  have b0 : |s0| ≤ (|n0| + 20) / 100000 := by
    rw [le_div_iff₀ (by norm_num)]
    rcases abs_cases s0 with ⟨h, -⟩ | ⟨h, -⟩ <;> rcases abs_cases n0 with ⟨k, _⟩ | ⟨k, _⟩ <;> rw [h, k] <;> linarith
  have b1 : |s1| ≤ (|n1| + 20) / 100000 := by
    rw [le_div_iff₀ (by norm_num)]
    rcases abs_cases s1 with ⟨h, -⟩ | ⟨h, -⟩ <;> rcases abs_cases n1 with ⟨k, _⟩ | ⟨k, _⟩ <;> rw [h, k] <;> linarith
  have b2 : |n0| + |n1| + 40 + 3 / 2 * (d / H i) ≤ 840000 := by
    rw [← mul_div_assoc, ← le_sub_iff_add_le', div_le_iff₀ hH]
    linarith
  linarith

/-- a function that is Lipschitz on the cells is Lipschitz -/
lemma lip_of_cells {S : ℝ → ℝ} {L : ℝ} (cell : ∀ i, i < 1002 → ∀ {v w : ℝ}, knots.getD i 0 ≤ v → v < w →
      w ≤ knots.getD (i + 1) 0 → |S w - S v| ≤ L * (w - v)) {v w : ℝ} (h1 : -1 ≤ v) (hvw : v < w) (h2 : w ≤ 1) :
    |S w - S v| ≤ L * (w - v) := by
  obtain ⟨i, hi, a, b⟩ := cell_exists h1 (lt_of_lt_of_le hvw h2)
  obtain ⟨j, hj, c, d⟩ := cell_exists' (show -1 ≤ w by linarith) h2
  by_cases hw : w ≤ knots.getD (i + 1) 0
  · exact cell i hi a hvw hw
  push Not at hw
  have hij : i + 1 ≤ j := by
    by_contra hlt
    have := good.le le_rfl (show j + 1 ≤ i + 1 by omega) (by rw [knots_length]; omega)
    linarith
  have key : ∀ k, i + 1 ≤ k → k < 1003 → |S (knots.getD k 0) - S v| ≤ L * (knots.getD k 0 - v) := by
    intro k hk
    induction k, hk using Nat.le_induction with
    | base => intro _; exact cell i hi a b le_rfl
    | succ k hk ih =>
      intro hk'
      have e := ih (by omega)
      have f := cell k (by omega) le_rfl (good.lt le_rfl (show k < k + 1 by omega) (by rw [knots_length]; omega)) le_rfl
      have t := abs_add_le (S (knots.getD (k + 1) 0) - S (knots.getD k 0)) (S (knots.getD k 0) - S v)
      rw [sub_add_sub_cancel] at t
      linarith
  have e := key j hij (by omega)
  rcases c.lt_or_eq with c | c
  · have f := cell j hj le_rfl c d
    have t := abs_add_le (S w - S (knots.getD j 0)) (S (knots.getD j 0) - S v)
    rw [sub_add_sub_cancel] at t
    linarith
  · rw [← c]; exact e

lemma splinedamp_lip {v w : ℝ} (h1 : -1 ≤ v) (hvw : v < w) (h2 : w ≤ 1) :
    |CubicSpline knots valdamp w - CubicSpline knots valdamp v| ≤ 8.4 * (w - v) := by
  refine lip_of_cells ?_ h1 hvw h2
  intro i hi v w a b c
  rw [spline_cell _ i hi a (by linarith), spline_cell _ i hi (by linarith) c]
  have := piecedamp_lip i hi (u := v - knots.getD i 0) (v := w - knots.getD i 0) (by linarith) (by linarith)
    (by unfold dx; linarith)
  rwa [show w - knots.getD i 0 - (v - knots.getD i 0) = w - v by ring] at this

lemma splineRD_lip {v w : ℝ} (h1 : -1 ≤ v) (hvw : v < w) (h2 : w ≤ 1) :
    |CubicSpline knots valRD w - CubicSpline knots valRD v| ≤ 8.4 * (w - v) := by
  have := splineRD_mono h1 hvw h2
  rw [abs_of_pos (by linarith)]
  exact this.2

/-! ### lookups in the resampled tables -/

lemma map_getD' (l : List ℝ) (S : ℝ → ℝ) (k : ℕ) (hk : k < l.length) : (l.map S).getD k 0 = S (l.getD k 0) := by
  rw [List.getD_eq_getElem _ _ (by rw [List.length_map]; exact hk), List.getD_eq_getElem _ _ hk, List.getElem_map]

lemma grid_map_getD (S : ℝ → ℝ) (k : ℕ) (hk : k < 500000) : (grid.map S).getD k 0 = S (grid.getD k 0) :=
  map_getD' grid S k (lt_of_lt_of_eq hk grid_length.symm)

lemma getD_mem' {l : List ℝ} {k : ℕ} (hk : k < l.length) : l.getD k 0 ∈ l := by
  rw [List.getD_eq_getElem _ _ hk]
  exact List.getElem_mem hk

lemma grid_range (k : ℕ) (hk : k < 500000) : -1 ≤ grid.getD k 0 ∧ grid.getD k 0 ≤ 1 :=
  grid_mem (getD_mem' (lt_of_lt_of_eq hk grid_length.symm))

lemma grid_cell {v : ℝ} (h1 : -1 ≤ v) (h2 : v ≤ 1) :
    ∃ k, k + 1 < 500000 ∧ grid.getD k 0 ≤ v ∧ v ≤ grid.getD (k + 1) 0 := by
  have g0 := grid_getD 0 (by norm_num)
  have g1 := grid_getD 499999 (by norm_num)
  norm_num only [Nat.cast_zero, Nat.cast_ofNat] at g0 g1
  rcases h2.lt_or_eq with h | h
  · obtain ⟨k, hk, a, b⟩ := GoodGrid.exists_cell (xp := grid) (x := v) (by rw [g0]; exact h1) 499999
      (by rw [grid_length]; norm_num) (by rw [g1]; exact h)
    exact ⟨k, by omega, a, b.le⟩
  · refine ⟨499998, by norm_num, ?_, ?_⟩
    · rw [h]; exact (grid_range _ (by norm_num)).2
    · rw [show 499998 + 1 = 499999 from rfl, g1, h]

lemma lookup_close {eps : ℝ} (he : 0 ≤ eps) (he' : eps < 4e-6) {S : ℝ → ℝ}
    (hS : ∀ {v w : ℝ}, -1 ≤ v → v < w → w ≤ 1 → |S w - S v| ≤ 8.4 * (w - v)) {v : ℝ} (h1 : -1 ≤ v) (h2 : v ≤ 1) :
    |Jnp.interp eps v grid (grid.map S) - S v| ≤ 4e-5 := by
  obtain ⟨k, hk, a, b⟩ := grid_cell h1 h2
  have hg := grid_good he'
  rw [interp_cell he hg _ (by rw [grid_length]; exact hk) a b, grid_map_getD S k (by omega), grid_map_getD S (k + 1) hk]
  have gap : grid.getD (k + 1) 0 - grid.getD k 0 = 2 / 499999 := by
    rw [grid_getD k (by omega), grid_getD (k + 1) (by omega)]; push_cast; ring
  have r0 := grid_range k (by omega)
  have r1 := grid_range (k + 1) hk
  have c0 : |S (grid.getD k 0) - S v| ≤ 4e-5 := by
    rcases a.lt_or_eq with c | c
    · have := hS r0.1 c h2
      rw [abs_sub_comm]
      have h3 : v - grid.getD k 0 ≤ 2 / 499999 := by linarith
      nlinarith
    · rw [c]; norm_num
  have c1 : |S (grid.getD (k + 1) 0) - S v| ≤ 4e-5 := by
    rcases b.lt_or_eq with c | c
    · have := hS h1 c r1.2
      have h3 : grid.getD (k + 1) 0 - v ≤ 2 / 499999 := by linarith
      nlinarith
    · rw [← c]; norm_num
  have t0 : 0 ≤ (v - grid.getD k 0) / (grid.getD (k + 1) 0 - grid.getD k 0) := by
    rw [gap]; exact div_nonneg (by linarith) (by norm_num)
  have t1 : (v - grid.getD k 0) / (grid.getD (k + 1) 0 - grid.getD k 0) ≤ 1 := by
    rw [div_le_one (by rw [gap]; norm_num)]; linarith
  generalize (v - grid.getD k 0) / (grid.getD (k + 1) 0 - grid.getD k 0) = t at *
  rw [abs_le] at c0 c1 ⊢
  constructor <;> nlinarith

/-- strictly increasing data give a strictly increasing lookup -/
lemma lookup_mono {eps : ℝ} (he : 0 ≤ eps) (he' : eps < 4e-6) {S : ℝ → ℝ}
    (hS : ∀ {v w : ℝ}, -1 ≤ v → v < w → w ≤ 1 → S v < S w) {v w : ℝ} (h1 : -1 ≤ v) (hvw : v < w) (h2 : w ≤ 1) :
    Jnp.interp eps v grid (grid.map S) < Jnp.interp eps w grid (grid.map S) := by
  have hg := grid_good he'
  have hS' : ∀ k, k + 1 < 500000 → S (grid.getD k 0) < S (grid.getD (k + 1) 0) := fun k hk =>
    hS (grid_range k (by omega)).1 (hg.lt he (Nat.lt_succ_self k) (by rw [grid_length]; exact hk)) (grid_range (k + 1) hk).2
  have cell : ∀ k, k + 1 < 500000 → ∀ {v w : ℝ}, grid.getD k 0 ≤ v → v < w → w ≤ grid.getD (k + 1) 0 →
      Jnp.interp eps v grid (grid.map S) < Jnp.interp eps w grid (grid.map S) := by
    intro k hk v w a b c
    rw [interp_cell he hg _ (by rw [grid_length]; exact hk) a (by linarith),
      interp_cell he hg _ (by rw [grid_length]; exact hk) (by linarith) c, grid_map_getD S k (by omega),
      grid_map_getD S (k + 1) hk]
    have hd : 0 < grid.getD (k + 1) 0 - grid.getD k 0 := by linarith
    have : (v - grid.getD k 0) / (grid.getD (k + 1) 0 - grid.getD k 0) < (w - grid.getD k 0) / (grid.getD (k + 1) 0 - grid.getD k 0) :=
      div_lt_div_of_pos_right (by linarith) hd
    have := mul_lt_mul_of_pos_right this (sub_pos.2 (hS' k hk))
    linarith
  have ex : ∃ i, i + 1 < 500000 ∧ grid.getD i 0 ≤ v ∧ v < grid.getD (i + 1) 0 := by
    obtain ⟨k, hk, a, b⟩ := grid_cell h1 (by linarith)
    rcases b.lt_or_eq with c | c
    · exact ⟨k, hk, a, c⟩
    · have hlast : k + 1 + 1 < 500000 := by
        by_contra hn
        obtain rfl : k = 499998 := by omega
        have g1 := grid_getD 499999 (by norm_num)
        norm_num only [Nat.cast_ofNat] at g1
        rw [show 499998 + 1 = 499999 from rfl, g1] at c
        linarith
      exact ⟨k + 1, hlast, c.ge, by rw [c]; exact hg.lt he (Nat.lt_succ_self _) (by rw [grid_length]; exact hlast)⟩
  obtain ⟨i, hi, a, b⟩ := ex
  obtain ⟨j, hj, c, d⟩ := grid_cell (show -1 ≤ w by linarith) h2
  by_cases hw : w ≤ grid.getD (i + 1) 0
  · exact cell i hi a hvw hw
  push Not at hw
  have hij : i + 1 ≤ j := by
    by_contra hlt
    have := hg.le he (show j + 1 ≤ i + 1 by omega) (by rw [grid_length]; omega)
    linarith
  have key : ∀ k, i + 1 ≤ k → k < 500000 →
      Jnp.interp eps v grid (grid.map S) < Jnp.interp eps (grid.getD k 0) grid (grid.map S) := by
    intro k hk
    induction k, hk using Nat.le_induction with
    | base => intro _; exact cell i hi a b le_rfl
    | succ k hk ih =>
      intro hk'
      exact (ih (by omega)).trans (cell k (by omega) le_rfl
        (hg.lt he (show k < k + 1 by omega) (by rw [grid_length]; omega)) le_rfl)
  have e := key j hij (by omega)
  rcases c.lt_or_eq with c | c
  · exact e.trans (cell j hj le_rfl c d)
  · rw [← c]; exact e

lemma shipped_of {eps : ℝ} {g : List ℝ} {S T : ℝ → ℝ} (he : 0 ≤ eps) (hg : GoodGrid eps g)
    (hS : ∀ v ∈ g, 0.046 ≤ S v ∧ S v ≤ 0.159) (hT : ∀ v ∈ g, 0.0002 ≤ T v ∧ T v ≤ 0.0145) :
    (⟨eps, g, g.map S, g.map T⟩ : QNM).Shipped where
  eps_nonneg := he
  good := hg
  len_RD := List.length_map _
  len_damp := List.length_map _
  RD_range := by
    intro y hy
    obtain ⟨v, hv, rfl⟩ := List.mem_map.1 hy
    exact hS v hv
  damp_range := by
    intro y hy
    obtain ⟨v, hv, rfl⟩ := List.mem_map.1 hy
    exact hT v hv

lemma qnmTable_shipped {eps : ℝ} (he : 0 ≤ eps) (he' : eps < 4e-6) : (qnmTable eps).Shipped := by
  unfold qnmTable
  refine shipped_of he (grid_good he') (fun v hv => ?_) (fun v hv => ?_)
  · have := splineRD_range (grid_mem hv).1 (grid_mem hv).2
    constructor <;> linarith
  · have := splinedamp_range (grid_mem hv).1 (grid_mem hv).2
    constructor <;> linarith

end Ripple.QNMData

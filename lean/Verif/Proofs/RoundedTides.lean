/-
  Propagation of rounding errors through sums and products, and the tidal conversion.
-/
import Verif.Proofs.RoundedEta
import Verif.Model.Conversions

namespace Ripple
namespace Fp

noncomputable section

variable {F : Fmt}

/-- error of one rounding, whatever the sign and the size -/
lemma rd_any (hF : F.WF) (x : ℝ) : |F.rd x - x| ≤ F.u * |x| + 2 * F.minNormal := by
  have hu := u_pos (F := F)
  have hu8 := hF.u_le
  have hn := minNormal_pos (F := F)
  have h0 := abs_nonneg x
  have hux := mul_nonneg hu.le h0
  rcases le_or_gt F.minNormal |x| with h | h
  · have hr := rnd_rel (F := F) h
    unfold Fmt.rd
    split_ifs with hc
    · rw [zero_sub, abs_neg]
      have h1 := abs_sub_abs_le_abs_sub x (F.rnd x)
      rw [abs_sub_comm] at h1
      have h2 := hc.2
      nlinarith only [h1, h2, hr, hu8, h0, hn, hux]
    · linarith
  · rcases eq_or_ne x 0 with rfl | hx
    · rw [rd_zero, sub_zero, abs_zero]; linarith
    have hr := rnd_err (F := F) x
    have hl : (2 : ℝ) ^ F.lsb x ≤ F.minNormal := by
      unfold Fmt.lsb Fmt.minNormal
      refine zpow_le (max_le ?_ ?_)
      · have h1 := (log_le_abs hx).trans h.le
        have := (zpow_le_zpow_iff_right₀ (one_lt_two (α := ℝ))).1 h1
        have := hF.bits
        omega
      · have := hF.bits; omega
    unfold Fmt.rd
    split_ifs with hc
    · rw [zero_sub, abs_neg]; linarith
    · linarith

/-- a finite float within `e` of `v` -/
def Near (x : XR) (v e : ℝ) : Prop := ∃ a : ℝ, x = .fin a ∧ |a - v| ≤ e

lemma Near.mono {x : XR} {v e e' : ℝ} (h : Near x v e) (he : e ≤ e') : Near x v e' :=
  let ⟨a, h1, h2⟩ := h; ⟨a, h1, h2.trans he⟩

lemma near_fin (a : ℝ) : Near (.fin a) a 0 := ⟨a, rfl, by simp⟩

lemma ofReal_near (hF : F.WF) {x v e S V g : ℝ} (hx : |x - v| ≤ e * S) (hv : |v| ≤ V * S) (hS : 0 < S)
    (hm : F.minNormal ≤ F.u * S) (hg : e + F.u * (V + e + 2) ≤ g) (hmax : (V + g) * S < 2 ^ F.emax) :
    Near (F.ofReal x) v (g * S) := by
  have hu := u_pos (F := F)
  have hr := rd_any hF x
  have hxv : |x| ≤ (V + e) * S := by
    have := abs_sub_abs_le_abs_sub x v; linarith
  have h1 : |F.rd x - v| ≤ g * S := by
    have h2 : |F.rd x - v| ≤ |F.rd x - x| + |x - v| := abs_sub_le _ _ _
    have h3 := mul_le_mul_of_nonneg_left hxv hu.le
    have h4 := mul_le_mul_of_nonneg_right hg hS.le
    nlinarith only [h2, h3, h4, hr, hx, hm]
  have h2 : |F.rd x| < 2 ^ F.emax := by
    have := abs_sub_abs_le_abs_sub (F.rd x) v; linarith
  have h3 := abs_lt.1 h2
  refine ⟨F.rd x, ?_, h1⟩
  unfold Fmt.ofReal
  rw [if_neg (by linarith), if_neg (by linarith)]

lemma Near.add (hF : F.WF) {x y : XR} {v w e f S V g : ℝ} (hx : Near x v (e * S)) (hy : Near y w (f * S))
    (hS : 0 < S) (hm : F.minNormal ≤ F.u * S) (hv : |v + w| ≤ V * S)
    (hg : e + f + F.u * (V + (e + f) + 2) ≤ g) (hmax : (V + g) * S < 2 ^ F.emax) : Near (F.add x y) (v + w) (g * S) := by
  obtain ⟨a, rfl, ha⟩ := hx
  obtain ⟨b, rfl, hb⟩ := hy
  refine ofReal_near hF (e := e + f) ?_ hv hS hm hg hmax
  have := abs_add_le (a - v) (b - w)
  rw [show a + b - (v + w) = a - v + (b - w) by ring]; linarith

lemma Near.sub (hF : F.WF) {x y : XR} {v w e f S V g : ℝ} (hx : Near x v (e * S)) (hy : Near y w (f * S))
    (hS : 0 < S) (hm : F.minNormal ≤ F.u * S) (hv : |v - w| ≤ V * S)
    (hg : e + f + F.u * (V + (e + f) + 2) ≤ g) (hmax : (V + g) * S < 2 ^ F.emax) : Near (F.sub x y) (v - w) (g * S) := by
  obtain ⟨a, rfl, ha⟩ := hx
  obtain ⟨b, rfl, hb⟩ := hy
  unfold Fmt.sub
  rw [XR.sub_fin]
  refine ofReal_near hF (e := e + f) ?_ hv hS hm hg hmax
  have := abs_sub (a - v) (b - w)
  rw [show a - b - (v - w) = a - v - (b - w) by ring]; linarith

lemma Near.mul (hF : F.WF) {x y : XR} {v w e f S V W g : ℝ} (hx : Near x v e) (hy : Near y w (f * S))
    (hS : 0 < S) (hm : F.minNormal ≤ F.u * S) (hv : |v| ≤ V) (hw : |w| ≤ W * S)
    (hg : V * f + W * e + e * f + F.u * (V * W + (V * f + W * e + e * f) + 2) ≤ g) (hmax : (V * W + g) * S < 2 ^ F.emax) :
    Near (F.mul x y) (v * w) (g * S) := by
  obtain ⟨a, rfl, ha⟩ := hx
  obtain ⟨b, rfl, hb⟩ := hy
  refine ofReal_near hF (e := V * f + W * e + e * f) (V := V * W) ?_ ?_ hS hm hg hmax
  · have h1 : |v * (b - w)| ≤ V * (f * S) := by
      rw [abs_mul]; exact mul_le_mul hv hb (abs_nonneg _) ((abs_nonneg _).trans hv)
    have h2 : |(a - v) * w| ≤ e * (W * S) := by
      rw [abs_mul]; exact mul_le_mul ha hw (abs_nonneg _) ((abs_nonneg _).trans ha)
    have h3 : |(a - v) * (b - w)| ≤ e * (f * S) := by
      rw [abs_mul]; exact mul_le_mul ha hb (abs_nonneg _) ((abs_nonneg _).trans ha)
    have h4 := abs_add_three (v * (b - w)) ((a - v) * w) ((a - v) * (b - w))
    rw [show a * b - v * w = v * (b - w) + (a - v) * w + (a - v) * (b - w) by ring]
    linarith
  · rw [abs_mul, mul_assoc]; exact mul_le_mul hv hw (abs_nonneg _) ((abs_nonneg _).trans hv)

namespace Fmt.Roomy

lemma u_small (h : F.Roomy) : F.u ≤ 1 / 1024 := by
  have : (2 : ℝ) ^ (-(F.p : ℤ)) ≤ 2 ^ (-10 : ℤ) := zpow_le (by have := h.ten; omega)
  unfold Fmt.u; norm_num at this ⊢; exact this

lemma max_big (h : F.Roomy) : (256 : ℝ) ≤ 2 ^ F.emax := by
  have : (2 : ℝ) ^ (8 : ℤ) ≤ 2 ^ F.emax := zpow_le h.eight
  norm_num at this ⊢; exact this

end Fmt.Roomy

lemma roomy32 (b : Bool) : (binary32 b).Roomy := { wf32 b with ten := by simp [binary32], eight := by simp [binary32] }
lemma roomy64 (b : Bool) : (binary64 b).Roomy := { wf64 b with ten := by simp [binary64], eight := by simp [binary64] }

lemma Near.add1 (hF : F.Roomy) {x y : XR} {v w e f V g : ℝ} (hx : Near x v e) (hy : Near y w f) (hv : |v + w| ≤ V)
    (hg : e + f + F.u * (V + (e + f) + 2) ≤ g) (hmax : V + g ≤ 255) : Near (F.add x y) (v + w) g := by
  have := Near.add hF.toWF (S := 1) (e := e) (f := f) (g := g) (V := V) (by simpa using hx) (by simpa using hy) one_pos
    (by have := hF.min_le_u; linarith) (by linarith) hg (by have := hF.max_big; linarith)
  simpa using this

lemma Near.sub1 (hF : F.Roomy) {x y : XR} {v w e f V g : ℝ} (hx : Near x v e) (hy : Near y w f) (hv : |v - w| ≤ V)
    (hg : e + f + F.u * (V + (e + f) + 2) ≤ g) (hmax : V + g ≤ 255) : Near (F.sub x y) (v - w) g := by
  have := Near.sub hF.toWF (S := 1) (e := e) (f := f) (g := g) (V := V) (by simpa using hx) (by simpa using hy) one_pos
    (by have := hF.min_le_u; linarith) (by linarith) hg (by have := hF.max_big; linarith)
  simpa using this

lemma Near.mul1 (hF : F.Roomy) {x y : XR} {v w e f V W g : ℝ} (hx : Near x v e) (hy : Near y w f) (hv : |v| ≤ V) (hw : |w| ≤ W)
    (hg : V * f + W * e + e * f + F.u * (V * W + (V * f + W * e + e * f) + 2) ≤ g) (hmax : V * W + g ≤ 255) :
    Near (F.mul x y) (v * w) g := by
  have := Near.mul hF.toWF (S := 1) (e := e) (f := f) (g := g) (V := V) (W := W) hx (by simpa using hy) one_pos
    (by have := hF.min_le_u; linarith) hv (by linarith) hg (by have := hF.max_big; linarith)
  simpa using this

lemma near_lit (hF : F.Roomy) {v V : ℝ} (hv : |v| ≤ V) (hV : V ≤ 100) : Near (lit F v) v (F.u * (V + 2)) := by
  have := ofReal_near hF.toWF (x := v) (v := v) (e := 0) (S := 1) (V := V) (g := F.u * (V + 2)) (by simp) (by linarith) one_pos
    (by have := hF.min_le_u; linarith) (by linarith) (by
      have := hF.max_big; have := hF.u_small; have h0 := (abs_nonneg v).trans hv
      have := mul_le_mul_of_nonneg_right this (show 0 ≤ V + 2 by linarith)
      linarith)
  unfold lit
  simpa using this

/-- The numbers below a quarter. -/
lemma below_quarter (hF : F.WF) {eta : ℝ} (h : F.rd eta = eta) (hq : eta < 1 / 4) : eta ≤ 1 / 4 * (1 - F.u) := by
  have hu := hF.u_le
  rcases le_or_gt eta (1 / 8) with h2 | h2
  · linarith
  have he0 : 0 < eta := by linarith
  have hlog : Int.log 2 |eta| = -3 := by
    refine log_eq ?_ ?_ <;> rw [abs_of_pos he0] <;> norm_num <;> linarith
  have hlsb : F.lsb eta = -3 - ((F.p : ℤ) - 1) := by
    unfold Fmt.lsb; rw [hlog]; refine max_eq_left ?_
    have := hF.low; have := hF.bits; omega
  have hN : eta = rne (eta / 2 ^ F.lsb eta) * 2 ^ F.lsb eta := (rd_rnd h).symm
  generalize rne (eta / 2 ^ F.lsb eta) = N at hN
  have hl := two_zpow_pos (F.lsb eta)
  obtain ⟨K, hK⟩ := zpow_mult (a := -2) (b := F.lsb eta) (by have := hF.bits; omega)
  have hK' : (1 / 4 : ℝ) = K * 2 ^ F.lsb eta := by rw [← hK]; norm_num
  have hlt : N < K := by
    rw [hN, hK'] at hq
    have := lt_of_mul_lt_mul_right hq hl.le
    exact_mod_cast this
  have hle : (N : ℝ) + 1 ≤ K := by exact_mod_cast hlt
  have h3 := mul_le_mul_of_nonneg_right hle hl.le
  have e : (2 : ℝ) ^ F.lsb eta = 1 / 4 * F.u := by
    rw [hlsb, Fmt.u, show (-3 : ℤ) - ((F.p : ℤ) - 1) = -2 + -(F.p : ℤ) by ring, zpow_add₀ two_ne_zero]; norm_num
  rw [add_mul, ← hN, ← hK', one_mul, e] at h3
  linarith

/-- difference of two square roots -/
lemma sqrt_diff {a b c : ℝ} (ha : 0 ≤ a) (hb : 0 ≤ b) (h : |a - b| ≤ c) : |Real.sqrt a - Real.sqrt b| ≤ Real.sqrt c := by
  refine Real.le_sqrt_of_sq_le ?_
  rw [sq_abs]
  have h1 := Real.sqrt_nonneg a
  have h2 := Real.sqrt_nonneg b
  have h3 := Real.sq_sqrt ha
  have h4 := Real.sq_sqrt hb
  have e1 : |a - b| = |Real.sqrt a - Real.sqrt b| * (Real.sqrt a + Real.sqrt b) := by
    rw [← h3, ← h4, Real.sqrt_sq h1, Real.sqrt_sq h2,
      show Real.sqrt a ^ 2 - Real.sqrt b ^ 2 = (Real.sqrt a - Real.sqrt b) * (Real.sqrt a + Real.sqrt b) by ring, abs_mul,
      abs_of_nonneg (show 0 ≤ Real.sqrt a + Real.sqrt b by linarith)]
  have e2 : |Real.sqrt a - Real.sqrt b| ≤ Real.sqrt a + Real.sqrt b := by rw [abs_le]; constructor <;> linarith
  have e3 : (Real.sqrt a - Real.sqrt b) ^ 2 ≤ |Real.sqrt a - Real.sqrt b| * (Real.sqrt a + Real.sqrt b) := by
    rw [← sq_abs, pow_two]; exact mul_le_mul_of_nonneg_left e2 (abs_nonneg _)
  linarith

/-- the square root of the tidal conversions -/
lemma root_near (hF : F.Roomy) (lib : PowLib F) {eta n : ℝ} (h : F.rd eta = eta) (hn : F.minNormal ≤ eta) (hq : eta ≤ 1 / 4)
    (hn4 : n ≤ 1 / 4) (he : |eta - n| ≤ 2 * F.u) :
    Near (lib.pow (F.sub (.fin 1) (F.mul (.fin 4) (.fin eta))) (1 / 2)) (Real.sqrt (1 - 4 * n)) (lib.eps + 3 * Real.sqrt F.u) := by
  have hp := hF.p1
  have hu := u_pos (F := F)
  have hus := hF.u_small
  have hn0 := minNormal_pos (F := F)
  have hmax := hF.max_big
  have heps := lib.eps_nonneg
  have he' := abs_le.1 he
  have hs9 : Real.sqrt (9 * F.u) = 3 * Real.sqrt F.u := by
    rw [Real.sqrt_mul (by norm_num), show (9 : ℝ) = 3 ^ 2 by norm_num, Real.sqrt_sq (by norm_num)]
  have r4 : F.rd (4 * eta) = 4 * eta := by
    have := rd_scale_up 2 hp h hn; norm_num at this; exact this
  rw [mul_fin (by linarith) (by rw [r4]; linarith), r4]
  have one : F.rd (1 : ℝ) = 1 := by
    have := hF.float_pow (k := 0) (by have := hF.min_le; norm_num; linarith)
    rwa [zpow_zero] at this
  have hx1 : F.rd (1 - 4 * eta) ≤ 1 := by
    have := rd_mono hp (show 0 ≤ 1 - 4 * eta by linarith) (show 1 - 4 * eta ≤ 1 by linarith)
    rwa [one] at this
  have hx0 := rd_nonneg (F := F) (show 0 ≤ 1 - 4 * eta by linarith)
  rw [sub_fin (by linarith) (by linarith)]
  rcases eq_or_lt_of_le hq with rfl | hlt
  · norm_num
    rw [rd_zero, lib.pow_zero _ (by norm_num)]
    refine ⟨0, rfl, ?_⟩
    have := sqrt_diff (a := 0) (b := 1 - 4 * n) (c := 9 * F.u) le_rfl (by linarith) (by rw [abs_le]; constructor <;> linarith)
    rw [Real.sqrt_zero, hs9] at this
    linarith
  · have hb := below_quarter hF.toWF h hlt
    have hxu : F.u ≤ 1 - 4 * eta := by linarith
    have hxn : F.minNormal ≤ 1 - 4 * eta := hF.min_le_u.trans hxu
    have hrel := rnd_rel (F := F) (x := 1 - 4 * eta) (by rw [abs_of_nonneg (by linarith)]; exact hxn)
    have hmn := minNormal_le_rnd hp hxn
    rw [← rd_normal hp hxn] at hrel hmn
    rw [abs_of_nonneg (show 0 ≤ 1 - 4 * eta by linarith)] at hrel
    obtain ⟨r, hr, -, hre⟩ := lib.pow_pos _ (1 / 2) (rd_idem hp _) hmn (by linarith) (by norm_num) (by norm_num)
    refine ⟨r, hr, ?_⟩
    rw [← Real.sqrt_eq_rpow] at hre
    have h1 : Real.sqrt (F.rd (1 - 4 * eta)) ≤ 1 := Real.sqrt_le_one.2 hx1
    have h2 := mul_le_mul_of_nonneg_left h1 heps
    have hux : F.u * (1 - 4 * eta) ≤ F.u * 1 := mul_le_mul_of_nonneg_left (by linarith) hu.le
    have h3 := sqrt_diff (a := F.rd (1 - 4 * eta)) (b := 1 - 4 * n) (c := 9 * F.u) hx0 (by linarith) (by
      have := abs_le.1 hrel
      rw [abs_le]; constructor <;> linarith)
    rw [hs9] at h3
    have h4 := abs_sub_le r (Real.sqrt (F.rd (1 - 4 * eta))) (Real.sqrt (1 - 4 * n))
    linarith

set_option maxHeartbeats 1000000 in
/-- The tidal conversion, for a computed mass ratio of at most a quarter. -/
lemma tides_near (hF : F.Roomy) (lib : PowLib F) {eta n l1 l2 : ℝ} (h : F.rd eta = eta) (hm : F.minNormal ≤ eta) (hq : eta ≤ 1 / 4)
    (hn0 : 0 ≤ n) (hn4 : n ≤ 1 / 4) (he : |eta - n| ≤ 2 * F.u) (h1 : 0 ≤ l1) (h2 : 0 ≤ l2)
    (hlow : F.minNormal ≤ F.u * (l1 + l2)) (hhigh : 20 * (l1 + l2) < 2 ^ F.emax) {m1 m2 : XR}
    (hms : (ms_to_Mc_eta F lib m1 m2).2 = .fin eta) :
    Near (lambdas_to_lambda_tildes F lib (.fin l1) (.fin l2) m1 m2).1
      (8 / 13 * ((1 + 7 * n - 31 * (n * n)) * (l1 + l2) + Real.sqrt (1 - 4 * n) * (1 + 9 * n - 11 * (n * n)) * (l1 - l2)))
      ((2 * lib.eps + 13 * Real.sqrt F.u) * (l1 + l2)) ∧
    Near (lambdas_to_lambda_tildes F lib (.fin l1) (.fin l2) m1 m2).2
      (1 / 2 * (Real.sqrt (1 - 4 * n) * (1 - 13272 / 1319 * n + 8944 / 1319 * (n * n)) * (l1 + l2)
        + (1 - 15910 / 1319 * n + 32850 / 1319 * (n * n) + 3380 / 1319 * (n * (n * n))) * (l1 - l2)))
      ((2 * lib.eps + 13 * Real.sqrt F.u) * (l1 + l2)) := by
  have hu := u_pos (F := F)
  have hus := hF.u_small
  have heps := lib.eps_nonneg
  have heps4 := lib.eps_le
  have hroot := root_near hF lib h hm hq hn4 he
  have hs0 : 0 ≤ Real.sqrt (1 - 4 * n) := Real.sqrt_nonneg _
  have hs1 : Real.sqrt (1 - 4 * n) ≤ 1 := Real.sqrt_le_one.2 (by linarith)
  have hw0 := Real.sqrt_nonneg F.u
  have hww := Real.mul_self_sqrt hu.le
  have hw : Real.sqrt F.u ≤ 1 / 32 := by
    rw [Real.sqrt_le_left (by norm_num)]; norm_num; linarith
  have hS : 0 < l1 + l2 := by
    have := minNormal_pos (F := F)
    exact (pos_iff_pos_of_mul_pos (this.trans_le hlow)).1 hu
  unfold lambdas_to_lambda_tildes
  simp only [hms]
  generalize lib.pow (F.sub (.fin 1) (F.mul (.fin 4) (.fin eta))) (1 / 2) = root at *
  generalize Real.sqrt (1 - 4 * n) = s at *
  obtain ⟨ρ, hρ⟩ : ∃ ρ, ρ = lib.eps + 3 * Real.sqrt F.u := ⟨_, rfl⟩
  have hρ0 : 0 ≤ ρ := by linarith
  have hρ1 : ρ ≤ 0.344 := by linarith
  have huw : F.u ≤ Real.sqrt F.u * (1 / 32) := by
    have := mul_le_mul_of_nonneg_left hw hw0; linarith
  have hfin : ∀ c d : ℝ, c ≤ 219 → d ≤ 2 → c * F.u + d * ρ ≤ 2 * lib.eps + 13 * Real.sqrt F.u := by
    intro c d hc hd
    have := mul_le_mul_of_nonneg_right hc hu.le
    have := mul_le_mul_of_nonneg_right hd hρ0
    linarith
  rw [← hρ] at hroot
  clear hρ hms
  generalize Real.sqrt F.u = w at *
  generalize lib.eps = eps at *
  have huu : F.u * F.u ≤ F.u * (1 / 1024) := mul_le_mul_of_nonneg_left hus hu.le
  have huu0 : 0 ≤ F.u * F.u := mul_nonneg hu.le hu.le
  have huuu : F.u * F.u * F.u ≤ F.u * F.u * (1 / 1024) := mul_le_mul_of_nonneg_left hus huu0
  have hur : F.u * ρ ≤ F.u * 0.344 := mul_le_mul_of_nonneg_left hρ1 hu.le
  have huur : F.u * F.u * ρ ≤ F.u * F.u * 0.344 := mul_le_mul_of_nonneg_left hρ1 huu0
  have hη : Near (.fin eta) n (2 * F.u) := ⟨eta, rfl, he⟩
  have hnn : n * n ≤ 1 / 16 := by nlinarith only [hn0, hn4]
  have hnn0 : 0 ≤ n * n := mul_nonneg hn0 hn0
  have hnn' : n * n ≤ n * (1 / 4) := mul_le_mul_of_nonneg_left hn4 hn0
  have hnnn : n * (n * n) ≤ 1 / 64 := by nlinarith only [hn0, hn4, hnn]
  have hnnn0 : 0 ≤ n * (n * n) := mul_nonneg hn0 hnn0
  have an : |n| ≤ 1 / 4 := abs_le.2 ⟨by linarith, hn4⟩
  have ann : |n * n| ≤ 1 / 16 := abs_le.2 ⟨by linarith, hnn⟩
  have annn : |n * (n * n)| ≤ 1 / 64 := abs_le.2 ⟨by linarith, hnnn⟩
  have as : |s| ≤ 1 := abs_le.2 ⟨by linarith, hs1⟩
  have hη2 : Near (F.mul (.fin eta) (.fin eta)) (n * n) (4 * F.u) :=
    Near.mul1 hF hη hη an an (by linarith) (by linarith)
  have hη3 : Near (F.mul (.fin eta) (F.mul (.fin eta) (.fin eta))) (n * (n * n)) (4 * F.u) :=
    Near.mul1 hF hη hη2 an ann (by linarith) (by linarith)
  generalize F.mul (.fin eta) (.fin eta) = eta2 at *
  generalize F.mul (.fin eta) eta2 = eta3 at *
  generalize (.fin eta : XR) = fe at *
  have cst : ∀ c : ℝ, Near (.fin c) c (0 * F.u) := fun c => by rw [zero_mul]; exact near_fin c
  -- sums and differences of the deformabilities
  have LP : Near (F.add (.fin l1) (.fin l2)) (l1 + l2) (3 * F.u * (l1 + l2)) :=
    Near.add hF.toWF (e := 0) (f := 0) (V := 1) (by rw [zero_mul]; exact near_fin _) (by rw [zero_mul]; exact near_fin _) hS hlow
      (by rw [one_mul, abs_of_pos hS]) (by linarith) (by nlinarith only [hS, hus, hhigh])
  have LM : Near (F.sub (.fin l1) (.fin l2)) (l1 - l2) (3 * F.u * (l1 + l2)) :=
    Near.sub hF.toWF (e := 0) (f := 0) (V := 1) (by rw [zero_mul]; exact near_fin _) (by rw [zero_mul]; exact near_fin _) hS hlow
      (by rw [one_mul, abs_le]; constructor <;> linarith) (by linarith) (by nlinarith only [hS, hus, hhigh])
  have aP : |l1 + l2| ≤ 1 * (l1 + l2) := by rw [one_mul, abs_of_pos hS]
  have aM : |l1 - l2| ≤ 1 * (l1 + l2) := by rw [one_mul, abs_le]; constructor <;> linarith
  generalize F.add (.fin l1) (.fin l2) = lp at *
  generalize F.sub (.fin l1) (.fin l2) = lm at *
  generalize hvp : l1 + l2 = S at *
  generalize l1 - l2 = D at *
  have room : ∀ c : ℝ, c ≤ 19 → c * S < 2 ^ F.emax := fun c hc => by
    have := mul_le_mul_of_nonneg_right hc hS.le; linarith
  have sc : ∀ {x : XR} {v : ℝ} (c d : ℝ), c ≤ 219 → d ≤ 2 → Near x v ((c * F.u + d * ρ) * S) →
      Near x v ((2 * eps + 13 * w) * S) := fun c d hc hd hx =>
    hx.mono (mul_le_mul_of_nonneg_right (hfin c d hc hd) hS.le)
  constructor
  · have A1 : Near (F.mul (.fin 7) fe) (7 * n) (18 * F.u) :=
      Near.mul1 hF (cst 7) hη (V := 7) (by norm_num) an (by linarith) (by linarith)
    have A2 : Near (F.add (.fin 1) (F.mul (.fin 7) fe)) (1 + 7 * n) (24 * F.u) :=
      Near.add1 hF (cst 1) A1 (V := 3) (abs_le.2 ⟨by linarith, by linarith⟩) (by linarith) (by linarith)
    have A3 : Near (F.mul (.fin 31) eta2) (31 * (n * n)) (129 * F.u) :=
      Near.mul1 hF (cst 31) hη2 (V := 31) (by norm_num) ann (by linarith) (by linarith)
    have A4 : Near (F.sub (F.add (.fin 1) (F.mul (.fin 7) fe)) (F.mul (.fin 31) eta2)) (1 + 7 * n - 31 * (n * n)) (158 * F.u) :=
      Near.sub1 hF A2 A3 (V := 2) (abs_le.2 ⟨by linarith, by nlinarith only [hn0]⟩) (by linarith) (by linarith)
    have T1 := Near.mul hF.toWF A4 LP hS hlow (V := 2) (W := 1) (g := 169 * F.u) (abs_le.2 ⟨by linarith, by nlinarith only [hn0]⟩) aP
      (by linarith) (room _ (by linarith))
    have B1 : Near (F.mul (.fin 9) fe) (9 * n) (23 * F.u) :=
      Near.mul1 hF (cst 9) hη (V := 9) (by norm_num) an (by linarith) (by linarith)
    have B2 : Near (F.add (.fin 1) (F.mul (.fin 9) fe)) (1 + 9 * n) (29 * F.u) :=
      Near.add1 hF (cst 1) B1 (V := 3.25) (abs_le.2 ⟨by linarith, by linarith⟩) (by linarith) (by linarith)
    have B3 : Near (F.mul (.fin 11) eta2) (11 * (n * n)) (47 * F.u) :=
      Near.mul1 hF (cst 11) hη2 (V := 11) (by norm_num) ann (by linarith) (by linarith)
    have aB : |1 + 9 * n - 11 * (n * n)| ≤ 3 := abs_le.2 ⟨by linarith, by nlinarith only [hn0, hn4]⟩
    have B4 := Near.sub1 hF B2 B3 (V := 3) (g := 82 * F.u) aB (by linarith) (by linarith)
    have B5 := Near.mul1 hF hroot B4 (g := 117 * F.u + 3 * ρ) as aB (by linarith) (by linarith)
    have T2 := Near.mul hF.toWF B5 LM hS hlow (V := 3) (W := 1) (g := 137 * F.u + 3 * ρ)
      (by rw [abs_mul]; exact (mul_le_mul as aB (abs_nonneg _) zero_le_one).trans (by norm_num)) aM (by linarith) (room _ (by linarith))
    have b1 : |(1 + 7 * n - 31 * (n * n)) * S| ≤ 2 * S := by
      rw [abs_mul, abs_of_pos hS]
      exact mul_le_mul_of_nonneg_right (abs_le.2 ⟨by linarith, by nlinarith only [hn0]⟩) hS.le
    have b2 : |s * (1 + 9 * n - 11 * (n * n)) * D| ≤ 3 * S := by
      rw [abs_mul, abs_mul]
      exact mul_le_mul ((mul_le_mul as aB (abs_nonneg _) zero_le_one).trans (by norm_num)) (by linarith) (abs_nonneg _) (by norm_num)
    have b3 : |(1 + 7 * n - 31 * (n * n)) * S + s * (1 + 9 * n - 11 * (n * n)) * D| ≤ 5 * S :=
      (abs_add_le _ _).trans (by linarith)
    have T3 := Near.add hF.toWF T1 T2 hS hlow (V := 5) (g := 315 * F.u + 3 * ρ) b3 (by linarith) (room _ (by linarith))
    have C1 := near_lit hF (v := 8 / 13) (V := 0.62) (by rw [abs_of_pos] <;> norm_num) (by norm_num)
    exact sc 219 2 le_rfl le_rfl (Near.mul hF.toWF C1 T3 hS hlow (V := 0.62) (W := 5) (by rw [abs_of_pos] <;> norm_num) b3
      (by linarith) (room _ (by linarith)))
  · have L1 := near_lit hF (v := 13272 / 1319) (V := 10.07) (by rw [abs_of_pos] <;> norm_num) (by norm_num)
    have L2 := near_lit hF (v := 8944 / 1319) (V := 6.79) (by rw [abs_of_pos] <;> norm_num) (by norm_num)
    have L3 := near_lit hF (v := 15910 / 1319) (V := 12.07) (by rw [abs_of_pos] <;> norm_num) (by norm_num)
    have L4 := near_lit hF (v := 32850 / 1319) (V := 24.91) (by rw [abs_of_pos] <;> norm_num) (by norm_num)
    have L5 := near_lit hF (v := 3380 / 1319) (V := 2.57) (by rw [abs_of_pos] <;> norm_num) (by norm_num)
    have L6 := near_lit hF (v := 1 / 2) (V := 0.5) (by rw [abs_of_pos] <;> norm_num) (by norm_num)
    have A1 := Near.mul1 hF L1 hη (V := 10.07) (g := 28 * F.u) (by rw [abs_of_pos] <;> norm_num) an (by linarith) (by linarith)
    have A2 := Near.sub1 hF (cst 1) A1 (V := 1.52) (g := 32 * F.u) (abs_le.2 ⟨by linarith, by linarith⟩) (by linarith) (by linarith)
    have A3 := Near.mul1 hF L2 hη2 (V := 6.79) (g := 31 * F.u) (by rw [abs_of_pos] <;> norm_num) ann (by linarith) (by linarith)
    have aA : |1 - 13272 / 1319 * n + 8944 / 1319 * (n * n)| ≤ 1.52 := abs_le.2 ⟨by linarith, by linarith⟩
    have A4 := Near.add1 hF A2 A3 (g := 67 * F.u) aA (by linarith) (by linarith)
    have A5 := Near.mul1 hF hroot A4 (g := 95 * F.u + 1.52 * ρ) as aA (by linarith) (by linarith)
    have aR : |s * (1 - 13272 / 1319 * n + 8944 / 1319 * (n * n))| ≤ 1.52 := by
      rw [abs_mul]; exact (mul_le_mul as aA (abs_nonneg _) zero_le_one).trans (by norm_num)
    have T1 := Near.mul hF.toWF A5 LP hS hlow (W := 1) (g := 106 * F.u + 1.52 * ρ) aR aP (by linarith) (room _ (by linarith))
    have B1 := Near.mul1 hF L3 hη (V := 12.07) (g := 33 * F.u) (by rw [abs_of_pos] <;> norm_num) an (by linarith) (by linarith)
    have B2 := Near.sub1 hF (cst 1) B1 (V := 2.02) (g := 38 * F.u) (abs_le.2 ⟨by linarith, by linarith⟩) (by linarith) (by linarith)
    have B3 := Near.mul1 hF L4 hη2 (V := 24.91) (g := 106 * F.u) (by rw [abs_of_pos] <;> norm_num) ann (by linarith) (by linarith)
    have B4 := Near.add1 hF B2 B3 (V := 1.1) (g := 148 * F.u)
      (abs_le.2 ⟨by nlinarith only [sq_nonneg (n - 0.2422), hn0], by linarith⟩) (by linarith) (by linarith)
    have B5 := Near.mul1 hF L5 hη3 (V := 2.57) (g := 13 * F.u) (by rw [abs_of_pos] <;> norm_num) annn (by linarith) (by linarith)
    have aB : |1 - 15910 / 1319 * n + 32850 / 1319 * (n * n) + 3380 / 1319 * (n * (n * n))| ≤ 1.1 :=
      abs_le.2 ⟨by nlinarith only [sq_nonneg (n - 0.2422), hn0, hnnn0], by linarith⟩
    have B6 := Near.add1 hF B4 B5 (g := 165 * F.u) aB (by linarith) (by linarith)
    have T2 := Near.mul hF.toWF B6 LM hS hlow (W := 1) (g := 173 * F.u) aB aM (by linarith) (room _ (by linarith))
    have b1 : |s * (1 - 13272 / 1319 * n + 8944 / 1319 * (n * n)) * S| ≤ 1.52 * S := by
      rw [abs_mul, abs_of_pos hS]; exact mul_le_mul_of_nonneg_right aR hS.le
    have b2 : |(1 - 15910 / 1319 * n + 32850 / 1319 * (n * n) + 3380 / 1319 * (n * (n * n))) * D| ≤ 1.1 * S := by
      rw [abs_mul]; exact mul_le_mul aB (by linarith) (abs_nonneg _) (by norm_num)
    have b3 := (abs_add_le (s * (1 - 13272 / 1319 * n + 8944 / 1319 * (n * n)) * S)
      ((1 - 15910 / 1319 * n + 32850 / 1319 * (n * n) + 3380 / 1319 * (n * (n * n))) * D)).trans
      (show _ ≤ 2.62 * S by linarith)
    have T3 := Near.add hF.toWF T1 T2 hS hlow (g := 285 * F.u + 1.52 * ρ) b3 (by linarith) (room _ (by linarith))
    exact sc 156 0.76 (by norm_num) (by norm_num) (Near.mul hF.toWF L6 T3 hS hlow (V := 0.5) (by rw [abs_of_pos] <;> norm_num) b3
      (by linarith) (room _ (by linarith)))

end
end Fp
end Ripple

/-
  Rounding errors of the overlap and the match.
-/
import Verif.Spec.RoundedMatch
import Verif.Proofs.RoundedMatch
import Verif.Proofs.RoundedTides
import Verif.Proofs.Match

namespace Ripple
namespace Fp

noncomputable section

variable {F : Fmt}

/-- a number of the format within `e` of `v` -/
def FNear (F : Fmt) (x : XR) (v e : ℝ) : Prop := ∃ a : ℝ, x = .fin a ∧ F.IsFloat a ∧ |a - v| ≤ e

/-- a complex number of the format within `e` of `v` -/
def CNear (F : Fmt) (x : XR × XR) (v : ℂ) (e : ℝ) : Prop := ∃ a : ℂ, x = ofC a ∧ CFloat F a ∧ ‖a - v‖ ≤ e

lemma FNear.mono {x : XR} {v e e' : ℝ} (h : FNear F x v e) (he : e ≤ e') : FNear F x v e' :=
  let ⟨a, h1, h2, h3⟩ := h; ⟨a, h1, h2, h3.trans he⟩

lemma CNear.mono {x : XR × XR} {v : ℂ} {e e' : ℝ} (h : CNear F x v e) (he : e ≤ e') : CNear F x v e' :=
  let ⟨a, h1, h2, h3⟩ := h; ⟨a, h1, h2, h3.trans he⟩

lemma ofReal_fnear (hF : F.WF) {x v e V g : ℝ} (hx : |x - v| ≤ e) (hv : |v| ≤ V)
    (hg : e + F.u * (V + e) + 2 * F.minNormal ≤ g) (hmax : V + g < 2 ^ F.emax) : FNear F (F.ofReal x) v g := by
  have hu := u_pos (F := F)
  have hr := rd_any hF x
  have hxv : |x| ≤ V + e := by have := abs_sub_abs_le_abs_sub x v; linarith
  have h1 : |F.rd x - v| ≤ g := by
    have h2 : |F.rd x - v| ≤ |F.rd x - x| + |x - v| := abs_sub_le _ _ _
    have h3 := mul_le_mul_of_nonneg_left hxv hu.le
    linarith
  have h2 : |F.rd x| < 2 ^ F.emax := by have := abs_sub_abs_le_abs_sub (F.rd x) v; linarith
  have h3 := abs_lt.1 h2
  refine ⟨F.rd x, ?_, ⟨rd_idem hF.p1 x, h2⟩, h1⟩
  unfold Fmt.ofReal
  rw [if_neg (by linarith), if_neg (by linarith)]

/-! ### sums -/

/-- the value of a finite number -/
def val : XR → ℝ
  | .fin r => r
  | _ => 0

def absSum (l : List XR) : ℝ := (l.map fun x => |val x|).sum
def valSum (l : List XR) : ℝ := (l.map val).sum

lemma absSum_nonneg (l : List XR) : 0 ≤ absSum l :=
  List.sum_nonneg fun x hx => by obtain ⟨y, -, rfl⟩ := List.mem_map.1 hx; exact abs_nonneg _

lemma valSum_le (l : List XR) : |valSum l| ≤ absSum l := by
  induction l with
  | nil => simp [valSum, absSum]
  | cons x l ih =>
    have : valSum (x :: l) = val x + valSum l := by simp [valSum]
    have h2 : absSum (x :: l) = |val x| + absSum l := by simp [absSum]
    rw [this, h2]
    have := abs_add_le (val x) (valSum l)
    linarith

/-- a list of finite floats -/
def AllFloat (F : Fmt) (l : List XR) : Prop := ∀ x ∈ l, ∃ a, x = .fin a ∧ F.IsFloat a

lemma sum_near (hF : F.WF) {n : ℕ} {T : ℝ} (hT : (1 + F.u) ^ n * T < 2 ^ F.emax) {l : List XR} {s : XR} (h : IsSum F l s) :
    AllFloat F l → l.length ≤ n → absSum l + l.length * (2 * F.minNormal / F.u) ≤ T →
    FNear F s (valSum l) (((1 + F.u) ^ (l.length - 1) - 1) * (absSum l + l.length * (2 * F.minNormal / F.u))) := by
  have hu := u_pos (F := F)
  have hm := minNormal_pos (F := F)
  set c := 2 * F.minNormal / F.u with hc
  have hc0 : 0 < c := by positivity
  have huc : F.u * c = 2 * F.minNormal := by rw [hc]; field_simp
  clear_value c
  induction h with
  | nil => exact fun _ _ _ => ⟨0, rfl, ⟨rd_zero, by rw [abs_zero]; exact two_zpow_pos _⟩, by simp [valSum]⟩
  | one x =>
    intro h _ _
    obtain ⟨a, rfl, ha⟩ := h x (by simp)
    exact ⟨a, rfl, ha, by simp [valSum, val]⟩
  | @add l l1 l2 x y hp _ _ i1 i2 =>
    intro hl hn hb
    have hlen : l.length = l1.length + l2.length := by rw [hp.length_eq, List.length_append]
    have hA : absSum l = absSum l1 + absSum l2 := by
      unfold absSum; rw [(hp.map _).sum_eq, List.map_append, List.sum_append]
    have hV : valSum l = valSum l1 + valSum l2 := by
      unfold valSum; rw [(hp.map _).sum_eq, List.map_append, List.sum_append]
    have a1 := absSum_nonneg l1
    have a2 := absSum_nonneg l2
    have n1 : 0 ≤ (l1.length : ℝ) * c := by positivity
    have n2 : 0 ≤ (l2.length : ℝ) * c := by positivity
    have hlc : (l.length : ℝ) * c = l1.length * c + l2.length * c := by rw [hlen]; push_cast; ring
    obtain ⟨v1, rfl, f1, e1⟩ := i1 (fun x hx => hl x (hp.mem_iff.2 (by simp [hx]))) (by omega) (by linarith)
    obtain ⟨v2, rfl, f2, e2⟩ := i2 (fun x hx => hl x (hp.mem_iff.2 (by simp [hx]))) (by omega) (by linarith)
    rcases Nat.eq_zero_or_pos l1.length with z1 | z1
    · have : l1 = [] := List.length_eq_zero_iff.1 z1
      subst this
      have hv0 : v1 = 0 := by simpa [valSum] using e1
      subst hv0
      have e : F.add (.fin 0) (.fin v2) = .fin v2 := by
        unfold Fmt.add; rw [XR.add_fin, _root_.zero_add]
        show F.ofReal v2 = _
        unfold Fmt.ofReal
        have := abs_lt.1 f2.2
        rw [f2.1, if_neg (by linarith), if_neg (by linarith)]
      rw [e]
      refine ⟨v2, rfl, f2, ?_⟩
      rw [hV, hA, hlc, hlen]; simpa [valSum, absSum] using e2
    rcases Nat.eq_zero_or_pos l2.length with z2 | z2
    · have : l2 = [] := List.length_eq_zero_iff.1 z2
      subst this
      have hv0 : v2 = 0 := by simpa [valSum] using e2
      subst hv0
      have e : F.add (.fin v1) (.fin 0) = .fin v1 := by
        unfold Fmt.add; rw [XR.add_fin, _root_.add_zero]
        show F.ofReal v1 = _
        unfold Fmt.ofReal
        have := abs_lt.1 f1.2
        rw [f1.1, if_neg (by linarith), if_neg (by linarith)]
      rw [e]
      refine ⟨v1, rfl, f1, ?_⟩
      rw [hV, hA, hlc, hlen]; simpa [valSum, absSum] using e1
    set k := l.length - 2 with hk
    have hk1 : l.length - 1 = k + 1 := by omega
    set q := (1 + F.u) ^ k with hq
    have hq1 : 1 ≤ q := one_le_pow₀ (by linarith)
    have b1 : (1 + F.u) ^ (l1.length - 1) ≤ q := pow_le_pow_right₀ (by linarith) (by omega)
    have b2 : (1 + F.u) ^ (l2.length - 1) ≤ q := pow_le_pow_right₀ (by linarith) (by omega)
    set T' := absSum l + l.length * c with hT'
    have e1' : |v1 - valSum l1| ≤ (q - 1) * (absSum l1 + l1.length * c) :=
      e1.trans (mul_le_mul_of_nonneg_right (by linarith) (by linarith))
    have e2' : |v2 - valSum l2| ≤ (q - 1) * (absSum l2 + l2.length * c) :=
      e2.trans (mul_le_mul_of_nonneg_right (by linarith) (by linarith))
    have e12 : |v1 + v2 - valSum l| ≤ (q - 1) * T' := by
      rw [hV, show v1 + v2 - (valSum l1 + valSum l2) = (v1 - valSum l1) + (v2 - valSum l2) by ring]
      have := abs_add_le (v1 - valSum l1) (v2 - valSum l2)
      rw [hT', hA, hlc]; linarith
    have hlc1 : c ≤ l.length * c := by
      have : (1 : ℝ) ≤ l.length := by exact_mod_cast (by omega : 1 ≤ l.length)
      nlinarith
    have hT0 : 0 ≤ T' := by rw [hT', hA]; linarith
    have hVA := valSum_le l
    have hqn : (1 + F.u) ^ (k + 1) * T' ≤ (1 + F.u) ^ n * T :=
      mul_le_mul (pow_le_pow_right₀ (by linarith) (by omega)) hb hT0 (by positivity)
    rw [hk1, pow_succ, ← hq]
    rw [pow_succ, ← hq] at hqn
    have hAc : absSum l + c ≤ T' := by rw [hT']; linarith
    have hmul := mul_le_mul_of_nonneg_left hAc hu.le
    refine ofReal_fnear hF e12 hVA ?_ ?_
    · linear_combination hmul - huc
    · linear_combination hqn + hT + hAc + hc0

lemma one_add_pow_le {n : ℕ} {u : ℝ} (hu : 0 ≤ u) (h : n * u ≤ 1 / 1000) : (1 + u) ^ n ≤ 1 + 1.01 * (n * u) := by
  induction n with
  | zero => simp
  | succ n ih =>
    push_cast at h ⊢
    have h1 := ih (by linarith)
    rw [pow_succ]
    have h2 := mul_le_mul_of_nonneg_right h1 (show 0 ≤ 1 + u by linarith)
    have h3 : n * u * u ≤ 1 / 1000 * u := mul_le_mul_of_nonneg_right (by linarith) hu
    nlinarith

/-- sum of an array, in terms of the exact values of the entries -/
lemma sum_arr (hF : F.WF) {n : ℕ} (hn : n * F.u ≤ 1 / 1000) (lib : Lib F) (x : Fin n → XR) (v : Fin n → ℝ) (e : Fin n → ℝ) {E A Q : ℝ}
    (hx : ∀ i, FNear F (x i) (v i) (e i)) (hE : ∑ i, e i ≤ E) (hA : ∑ i, |v i| ≤ A)
    (hQ : F.minNormal * n ≤ F.u * Q) (hmax : 1.01 * (A + E + 2 * Q) < 2 ^ F.emax) :
    FNear F (lib.sum (List.ofFn x)) (∑ i, v i) (E + 1.01 * (n * F.u) * (A + E + 2 * Q)) := by
  have hu := u_pos (F := F)
  have hm := minNormal_pos (F := F)
  choose a ha hf he using hx
  have hxa : x = fun i => .fin (a i) := funext ha
  have hlen : (List.ofFn x).length = n := List.length_ofFn
  have hval : valSum (List.ofFn x) = ∑ i, a i := by
    unfold valSum; rw [hxa, List.map_ofFn, List.sum_ofFn]; rfl
  have habs : absSum (List.ofFn x) = ∑ i, |a i| := by
    unfold absSum; rw [hxa, List.map_ofFn, List.sum_ofFn]; rfl
  have hA2 : ∑ i, |a i| ≤ A + E := by
    have : ∑ i, |a i| ≤ ∑ i, (|v i| + e i) := Finset.sum_le_sum fun i _ => by
      have := abs_sub_abs_le_abs_sub (a i) (v i); have := he i; linarith
    rw [Finset.sum_add_distrib] at this; linarith
  have hc : (n : ℝ) * (2 * F.minNormal / F.u) ≤ 2 * Q := by
    rw [show (n : ℝ) * (2 * F.minNormal / F.u) = 2 * ((F.minNormal * n) / F.u) by ring]
    have : F.minNormal * n / F.u ≤ Q := by rw [div_le_iff₀ hu]; linarith
    linarith
  set T := A + E + 2 * Q with hT
  have hT0 : 0 ≤ absSum (List.ofFn x) + n * (2 * F.minNormal / F.u) := by
    have := absSum_nonneg (List.ofFn x); positivity
  have hTT : absSum (List.ofFn x) + n * (2 * F.minNormal / F.u) ≤ T := by rw [habs]; linarith
  have hpow := one_add_pow_le hu.le hn
  obtain ⟨s, h1, h2, h3⟩ := sum_near hF (n := n) (T := T) (by nlinarith) (lib.sum_spec (List.ofFn x))
    (by intro y hy; obtain ⟨i, rfl⟩ := (List.mem_ofFn' _ _).1 hy; exact ⟨a i, ha i, hf i⟩) hlen.le (by rw [hlen]; exact hTT)
  refine ⟨s, h1, h2, ?_⟩
  rw [hlen] at h3
  have hp2 : (1 + F.u) ^ (n - 1) ≤ (1 + F.u) ^ n := pow_le_pow_right₀ (by linarith) (by omega)
  have hp1 : 1 ≤ (1 + F.u) ^ (n - 1) := one_le_pow₀ (by linarith)
  have h4 : ((1 + F.u) ^ (n - 1) - 1) * (absSum (List.ofFn x) + n * (2 * F.minNormal / F.u)) ≤ 1.01 * (n * F.u) * T :=
    mul_le_mul (by linarith) hTT hT0 (by positivity)
  have h5 : |∑ i, a i - ∑ i, v i| ≤ E := by
    rw [← Finset.sum_sub_distrib]
    exact (Finset.abs_sum_le_sum_abs _ _).trans ((Finset.sum_le_sum fun i _ => he i).trans hE)
  have h6 : |s - ∑ i, v i| ≤ |s - ∑ i, a i| + |∑ i, a i - ∑ i, v i| := abs_sub_le _ _ _
  rw [hval] at h3
  linarith

/-! ### the norm -/

lemma sq_near {H r e m : ℝ} (hH : 0 ≤ H) (h : |r - H| ≤ e * H + 4 * m) (hm : 0 ≤ m) (hme : m ≤ e) (he : e ≤ 1 / 1000) :
    |r * r - H ^ 2| ≤ 7 * e * H ^ 2 + 5 * m := by
  have h1 : |r * r - H ^ 2| ≤ (e * H + 4 * m) * (2 * H + (e * H + 4 * m)) := by
    rw [show r * r - H ^ 2 = (r - H) * (2 * H + (r - H)) by ring, abs_mul]
    refine mul_le_mul h ?_ (abs_nonneg _) ((abs_nonneg _).trans h)
    have := abs_add_le (2 * H) (r - H)
    rw [abs_of_nonneg (show 0 ≤ 2 * H by linarith)] at this
    linarith
  have e0 : 0 ≤ e := hm.trans hme
  have a : m * H ≤ m / 2 + m * H ^ 2 / 2 := by nlinarith [sq_nonneg (H - 1)]
  have b : m * H ^ 2 ≤ e * H ^ 2 := mul_le_mul_of_nonneg_right hme (sq_nonneg H)
  have c : e * e * H ^ 2 ≤ 1 / 1000 * (e * H ^ 2) := by
    have := mul_le_mul_of_nonneg_right he (mul_nonneg e0 (sq_nonneg H)); linarith
  have d : m * m ≤ 1 / 1000 * m := mul_le_mul_of_nonneg_right (hme.trans he) hm
  have f : e * (m * H) ≤ 1 / 1000 * (m * H) := mul_le_mul_of_nonneg_right he (mul_nonneg hm hH)
  have g := mul_nonneg e0 (sq_nonneg H)
  nlinarith only [h1, a, b, c, d, f, g, hm]

lemma norm_term (hF : F.Roomy) {e H s : ℝ} {c : XR} (hu : F.u ≤ e) (he : e ≤ 1 / 1000) (hH : 0 ≤ H) (hs : 0 < s)
    (hc : FNear F c H (e * H + 4 * F.minNormal)) (h8 : 8 * H ^ 2 < 2 ^ F.emax)
    (hW : H ^ 2 / s + (11 * e * (H ^ 2 / s) + 9 * (F.minNormal / s) + 2 * F.minNormal) < 2 ^ F.emax) :
    FNear F (F.div (F.mul c c) (.fin s)) (H ^ 2 / s) (11 * e * (H ^ 2 / s) + 9 * (F.minNormal / s) + 2 * F.minNormal) := by
  obtain ⟨r, rfl, -, hr⟩ := hc
  have hm := minNormal_pos (F := F)
  have hu0 := u_pos (F := F)
  have hmu := hF.toWF.min_le_u
  have hM := hF.max_big
  have hsq := sq_near hH hr hm.le (hmu.trans hu) he
  have e0 : 0 ≤ e := hu0.le.trans hu
  have H0 := sq_nonneg H
  have eH := mul_nonneg e0 H0
  have eH2 : e * H ^ 2 ≤ 1 / 1000 * H ^ 2 := mul_le_mul_of_nonneg_right he H0
  have em : e * F.minNormal ≤ 1 / 1000 * F.minNormal := mul_le_mul_of_nonneg_right he hm.le
  have eeH : e * (e * H ^ 2) ≤ 1 / 1000 * (e * H ^ 2) := mul_le_mul_of_nonneg_right he eH
  have hm4 := hF.toWF.min_le
  obtain ⟨q, hq, -, hq2⟩ := ofReal_fnear hF.toWF (g := 9 * e * H ^ 2 + 8 * F.minNormal) hsq (abs_of_nonneg H0).le (by
      have := mul_le_mul_of_nonneg_right hu (show 0 ≤ H ^ 2 + (7 * e * H ^ 2 + 5 * F.minNormal) by positivity)
      nlinarith only [this, em, eeH, hm, eH]) (by nlinarith only [h8, eH2, hm4, hM])
  have e1 : F.mul (.fin r) (.fin r) = .fin q := hq
  rw [e1]
  unfold Fmt.div
  rw [XR.div_fin _ hs.ne']
  have hW0 : 0 ≤ H ^ 2 / s := by positivity
  have hms : 0 ≤ F.minNormal / s := by positivity
  refine ofReal_fnear hF.toWF (e := 9 * e * (H ^ 2 / s) + 8 * (F.minNormal / s)) ?_ (abs_of_nonneg hW0).le ?_ hW
  · rw [← sub_div, abs_div, abs_of_pos hs, div_le_iff₀ hs]
    refine hq2.trans (le_of_eq ?_)
    field_simp
  · have eW := mul_nonneg e0 hW0
    have k1 : e * (e * (H ^ 2 / s)) ≤ 1 / 1000 * (e * (H ^ 2 / s)) := mul_le_mul_of_nonneg_right he eW
    have k2 : e * (F.minNormal / s) ≤ 1 / 1000 * (F.minNormal / s) := mul_le_mul_of_nonneg_right he hms
    have := mul_le_mul_of_nonneg_right hu
      (show 0 ≤ H ^ 2 / s + (9 * e * (H ^ 2 / s) + 8 * (F.minNormal / s)) by positivity)
    nlinarith only [this, k1, k2, eW, hms]

/-- what is used about the sizes -/
structure Sizes (F : Fmt) (N n : ℕ) (S : Fin n → ℝ) (Q e : ℝ) : Prop where
  roomy : F.Roomy
  ue : F.u ≤ e
  nue : n * F.u ≤ e
  e1 : e ≤ 1 / 1000
  nN : n ≤ N
  Spos : ∀ i, 0 < S i
  Q0 : 0 < Q
  high : 8 * Q < 2 ^ F.emax
  mN : F.minNormal * N ≤ F.u * Q
  mQ : F.minNormal ≤ F.u * Q
  mS : F.minNormal * ∑ i, 1 / S i ≤ F.u * Q

variable {N n : ℕ} {S : Fin n → ℝ} {e : ℝ}

namespace Sizes
variable {Q : ℝ} (z : Sizes F N n S Q e)
include z

lemma mn : F.minNormal * n ≤ F.u * Q := by
  have : (n : ℝ) ≤ N := by exact_mod_cast z.nN
  exact (mul_le_mul_of_nonneg_left this minNormal_pos.le).trans z.mN

lemma uQ : F.u * Q ≤ e * Q := mul_le_mul_of_nonneg_right z.ue z.Q0.le

lemma eQ : e * Q ≤ 1 / 1000 * Q := mul_le_mul_of_nonneg_right z.e1 z.Q0.le

lemma e0 : 0 < e := u_pos.trans_le z.ue

lemma nu1 : n * F.u ≤ 1 / 1000 := z.nue.trans z.e1

lemma mS_le (i : Fin n) : F.minNormal / S i ≤ F.u * Q := by
  refine le_trans ?_ z.mS
  rw [show F.minNormal / S i = F.minNormal * (1 / S i) by ring]
  exact mul_le_mul_of_nonneg_left (Finset.single_le_sum (f := fun i => 1 / S i)
    (fun j _ => (one_div_pos.2 (z.Spos j)).le) (Finset.mem_univ i)) minNormal_pos.le

end Sizes

lemma WellScaled.sizes {h : Fin n → ℂ} (w : WellScaled F N S h) (hF : F.Roomy) (hue : F.u ≤ e) (hnu : n * F.u ≤ e)
    (he : e ≤ 1 / 1000) (hn : n ≤ N) (hS : ∀ i, 0 < S i) : Sizes F N n S (normSq S h) e := by
  have hm := minNormal_pos (F := F)
  have hu := u_pos (F := F)
  have hl := w.low
  have hN : (0 : ℝ) ≤ N := Nat.cast_nonneg N
  have h0 : 0 < F.u * normSq S h := lt_of_lt_of_le (by positivity) hl
  have hmN := mul_nonneg hm.le hN
  exact ⟨hF, hue, hnu, he, hn, hS, (mul_pos_iff_of_pos_left hu).1 h0, w.norm_high, by linarith, by linarith, w.noise_low⟩

/-- the sum under the root -/
lemma norm_sum_near (lib : Lib F) (hl : lib.Accurate e) {h : Fin n → ℂ} (w : WellScaled F N S h)
    (z : Sizes F N n S (normSq S h) e) :
    FNear F (lib.sum (List.ofFn fun i => F.div (F.mul (lib.cabs (ofC (h i))) (lib.cabs (ofC (h i)))) (.fin (S i))))
      (normSq S h) (26 * e * normSq S h) := by
  set Q := normSq S h with hQ
  have hm := minNormal_pos (F := F)
  have hM := z.roomy.max_big
  have hm4 := z.roomy.toWF.min_le
  have hQ0 := z.Q0
  have heQ := z.eQ
  have huQ := z.uQ
  have hterm : ∀ i, 0 ≤ ‖h i‖ ^ 2 / S i := fun i => div_nonneg (sq_nonneg _) (z.Spos i).le
  have hle : ∀ i, ‖h i‖ ^ 2 / S i ≤ Q := fun i =>
    Finset.single_le_sum (f := fun i => ‖h i‖ ^ 2 / S i) (fun j _ => hterm j) (Finset.mem_univ i)
  have hx : ∀ i, FNear F (F.div (F.mul (lib.cabs (ofC (h i))) (lib.cabs (ofC (h i)))) (.fin (S i))) (‖h i‖ ^ 2 / S i)
      (11 * e * (‖h i‖ ^ 2 / S i) + 9 * (F.minNormal / S i) + 2 * F.minNormal) := by
    intro i
    have h8 := w.high i
    have hH := norm_nonneg (h i)
    obtain ⟨r, r1, r2, r3⟩ := hl.cabs (h i) (w.float i) (by nlinarith only [sq_nonneg (‖h i‖ - 1), h8, hM, sq_nonneg ‖h i‖])
    refine norm_term z.roomy z.ue z.e1 hH (z.Spos i) ⟨r, r1, r2, r3⟩ h8 ?_
    have k1 := z.mS_le i
    have k2 : e * (‖h i‖ ^ 2 / S i) ≤ e * Q := mul_le_mul_of_nonneg_left (hle i) z.e0.le
    have k3 := hle i
    have k4 := z.high
    nlinarith only [k1, k2, k3, k4, heQ, huQ, hm4, hM, hQ0]
  have hsum : ∑ i, (11 * e * (‖h i‖ ^ 2 / S i) + 9 * (F.minNormal / S i) + 2 * F.minNormal) ≤ 22 * e * Q := by
    rw [Finset.sum_add_distrib, Finset.sum_add_distrib, ← Finset.mul_sum, ← Finset.mul_sum, Finset.sum_const, Finset.card_univ,
      Fintype.card_fin, nsmul_eq_mul]
    have k1 : ∑ i, F.minNormal / S i = F.minNormal * ∑ i, 1 / S i := by
      rw [Finset.mul_sum]; exact Finset.sum_congr rfl fun i _ => by ring
    have k2 : ∑ i, ‖h i‖ ^ 2 / S i = Q := rfl
    rw [k1, k2]
    have k3 := z.mS
    have k4 := z.mn
    nlinarith only [k3, k4, huQ]
  have hA : ∑ i, |‖h i‖ ^ 2 / S i| ≤ Q := by
    refine (Finset.sum_le_sum fun i _ => (abs_of_nonneg (hterm i)).le).trans le_rfl
  have k4 := z.high
  have := sum_arr z.roomy.toWF z.nu1 lib _ _ _ hx hsum hA z.mn (by nlinarith only [heQ, k4, hQ0])
  refine this.mono ?_
  have k5 : n * F.u * (Q + 22 * e * Q + 2 * Q) ≤ e * (Q + 22 * e * Q + 2 * Q) :=
    mul_le_mul_of_nonneg_right z.nue (by have := z.e0; positivity)
  have k6 : e * (e * Q) ≤ e * (1 / 1000 * Q) := mul_le_mul_of_nonneg_left heQ z.e0.le
  have k7 := mul_pos z.e0 hQ0
  nlinarith only [k5, k6, k7]

lemma noise_near (lib : Lib F) (hl : lib.Accurate e) {h : Fin n → ℂ} (w : WellScaled F N S h)
    (z : Sizes F N n S (normSq S h) e) :
    FNear F (noiseNorm F lib (fun i => .fin (S i)) fun i => ofC (h i)) (√(normSq S h)) (30 * e * √(normSq S h)) := by
  obtain ⟨v, hv, -, hv2⟩ := norm_sum_near lib hl w z
  unfold noiseNorm
  rw [hv]
  set Q := normSq S h with hQ
  have hQ0 := z.Q0
  have heQ := z.eQ
  have hu := u_pos (F := F)
  have e0 := z.e0
  have he := z.e1
  have hm := minNormal_pos (F := F)
  have hv3 := abs_le.1 hv2
  have hvp : 0 ≤ v := by nlinarith only [hv3.1, heQ, hQ0]
  unfold Fmt.sqrt
  rw [XR.sqrt_fin hvp]
  have hr := Real.sqrt_pos.2 hQ0
  have hrv := Real.sqrt_nonneg v
  have s1 := Real.mul_self_sqrt hQ0.le
  have s2 := Real.mul_self_sqrt hvp
  set r := √Q
  set t := √v
  have hd : |t - r| ≤ 26 * e * r := by
    have h1 : |t - r| * (t + r) ≤ 26 * e * r * r := by
      rw [← abs_of_nonneg (show 0 ≤ t + r by linarith), ← abs_mul, show (t - r) * (t + r) = v - Q by linear_combination s2 - s1]
      rw [mul_assoc, s1]; exact hv2
    have h2 : |t - r| * r ≤ 26 * e * r * r := by nlinarith only [h1, abs_nonneg (t - r), hrv]
    exact le_of_mul_le_mul_right h2 hr
  have hmr : F.minNormal ≤ F.u * r := by
    have a1 := z.mQ
    have a2 := z.roomy.toWF.min_le_u
    rcases le_or_gt 1 r with h1 | h1
    · exact a2.trans (by nlinarith only [hu, h1])
    · refine a1.trans (mul_le_mul_of_nonneg_left ?_ hu.le)
      rw [← s1]; nlinarith only [hr, h1]
  have hur : F.u * r ≤ e * r := mul_le_mul_of_nonneg_right z.ue hr.le
  have her : e * r ≤ 1 / 1000 * r := mul_le_mul_of_nonneg_right he hr.le
  refine ofReal_fnear z.roomy.toWF hd (abs_of_pos hr).le ?_ ?_
  · have k1 := mul_le_mul_of_nonneg_right z.ue (show 0 ≤ r + 26 * e * r by positivity)
    have k2 : e * (e * r) ≤ e * (1 / 1000 * r) := mul_le_mul_of_nonneg_left her e0.le
    have k3 := mul_pos e0 hr
    nlinarith only [k1, k2, k3, hmr, hur]
  · have k4 := z.high
    have hM := z.roomy.max_big
    nlinarith only [her, k4, hM, s1, sq_nonneg (r - 1)]

/-- product of the norms -/
lemma norms_near (lib : Lib F) (hl : lib.Accurate e) {h1 h2 : Fin n → ℂ} (w1 : WellScaled F N S h1) (w2 : WellScaled F N S h2)
    (z1 : Sizes F N n S (normSq S h1) e) (z2 : Sizes F N n S (normSq S h2) e)
    (z : Sizes F N n S (√(normSq S h1) * √(normSq S h2)) e) :
    FNear F (F.mul (noiseNorm F lib (fun i => .fin (S i)) fun i => ofC (h1 i)) (noiseNorm F lib (fun i => .fin (S i)) fun i => ofC (h2 i)))
      (√(normSq S h1) * √(normSq S h2)) (66 * e * (√(normSq S h1) * √(normSq S h2))) := by
  obtain ⟨a, ha, -, ha2⟩ := noise_near lib hl w1 z1
  obtain ⟨b, hb, -, hb2⟩ := noise_near lib hl w2 z2
  rw [ha, hb]
  have hr := Real.sqrt_pos.2 z1.Q0
  have ht := Real.sqrt_pos.2 z2.Q0
  set r := √(normSq S h1)
  set t := √(normSq S h2)
  have e0 := z.e0
  have hP := z.Q0
  have heP := z.eQ
  have k1 : |a * b - r * t| ≤ 61 * e * (r * t) := by
    rw [show a * b - r * t = (a - r) * t + r * (b - t) + (a - r) * (b - t) by ring]
    have j1 : |(a - r) * t| ≤ 30 * e * r * t := by
      rw [abs_mul, abs_of_pos ht]; exact mul_le_mul_of_nonneg_right ha2 ht.le
    have j2 : |r * (b - t)| ≤ r * (30 * e * t) := by
      rw [abs_mul, abs_of_pos hr]; exact mul_le_mul_of_nonneg_left hb2 hr.le
    have j3 : |(a - r) * (b - t)| ≤ 30 * e * r * (30 * e * t) := by
      rw [abs_mul]; exact mul_le_mul ha2 hb2 (abs_nonneg _) ((abs_nonneg _).trans ha2)
    have j4 := abs_add_three ((a - r) * t) (r * (b - t)) ((a - r) * (b - t))
    have j5 : e * (e * (r * t)) ≤ e * (1 / 1000 * (r * t)) := mul_le_mul_of_nonneg_left heP e0.le
    have j6 := mul_pos e0 hP
    nlinarith only [j1, j2, j3, j4, j5, j6]
  refine ofReal_fnear z.roomy.toWF k1 (abs_of_pos hP).le ?_ ?_
  · have k1 := mul_le_mul_of_nonneg_right z.ue (show 0 ≤ r * t + 61 * e * (r * t) by positivity)
    have k2 : e * (e * (r * t)) ≤ e * (1 / 1000 * (r * t)) := mul_le_mul_of_nonneg_left heP e0.le
    have k3 := mul_pos e0 hP
    have k4 := z.mQ
    have k5 := z.uQ
    nlinarith only [k1, k2, k3, k4, k5]
  · have k4 := z.high
    nlinarith only [heP, k4, hP]

/-- the product of two admissible norms is an admissible size -/
lemma Sizes.prod {Q1 Q2 : ℝ} (z1 : Sizes F N n S Q1 e) (z2 : Sizes F N n S Q2 e) : Sizes F N n S (√Q1 * √Q2) e := by
  have h1 := z1.Q0
  have h2 := z2.Q0
  have hs1 := Real.mul_self_sqrt h1.le
  have hs2 := Real.mul_self_sqrt h2.le
  have p1 := Real.sqrt_pos.2 h1
  have p2 := Real.sqrt_pos.2 h2
  have hu := u_pos (F := F)
  have key : ∀ x : ℝ, x ≤ F.u * Q1 → x ≤ F.u * Q2 → x ≤ F.u * (√Q1 * √Q2) := by
    intro x a b
    rcases le_total Q1 Q2 with h | h
    · refine a.trans (mul_le_mul_of_nonneg_left ?_ hu.le)
      exact hs1.symm.le.trans (mul_le_mul_of_nonneg_left (Real.sqrt_le_sqrt h) p1.le)
    · refine b.trans (mul_le_mul_of_nonneg_left ?_ hu.le)
      exact hs2.symm.le.trans (mul_le_mul_of_nonneg_right (Real.sqrt_le_sqrt h) p2.le)
  refine ⟨z1.roomy, z1.ue, z1.nue, z1.e1, z1.nN, z1.Spos, mul_pos p1 p2, ?_, key _ z1.mN z2.mN, key _ z1.mQ z2.mQ, key _ z1.mS z2.mS⟩
  have a := z1.high
  have b := z2.high
  nlinarith only [a, b, hs1, hs2, sq_nonneg (√Q1 - √Q2)]

end
end Fp
end Ripple

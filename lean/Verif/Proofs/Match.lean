import Verif.Model.Match
import Verif.Spec.Psd
import Mathlib.Analysis.InnerProductSpace.PiL2
import Mathlib.Tactic.FieldSimp
import Mathlib.Tactic.Positivity

namespace Ripple
open Jnp Spec Complex

/-- inverse noise weight -/
noncomputable def wt : XR → ℝ
  | .fin r => 1 / r
  | _ => 0

lemma wt_nonneg {n : ℕ} {S : Fin n → XR} (hS : IsPSD S) (i : Fin n) : 0 ≤ wt (S i) := by
  rcases hS i with ⟨r, hr, h⟩ | h <;> rw [h] <;> simp [wt]
  exact hr.le

lemma wt_pos_of_fin {n : ℕ} {S : Fin n → XR} (hS : IsPSD S) {i : Fin n} {r : ℝ} (h : S i = .fin r) :
    0 < wt (S i) := by
  rcases hS i with ⟨r', hr, h'⟩ | h'
  · rw [h']; simp [wt, hr]
  · rw [h'] at h; cases h

lemma cdivX_psd {n : ℕ} {S : Fin n → XR} (hS : IsPSD S) (i : Fin n) (z : ℂ) :
    cdivX z (S i) = some (z * (wt (S i) : ℂ)) := by
  rcases hS i with ⟨r, hr, h⟩ | h <;> rw [h]
  · simp [cdivX, wt, hr.ne', div_eq_mul_inv]
  · simp [cdivX, wt]

lemma xdiv_psd {n : ℕ} {S : Fin n → XR} (hS : IsPSD S) (i : Fin n) (x : ℝ) :
    XR.fin x / S i = .fin (x * wt (S i)) := by
  rcases hS i with ⟨r, hr, h⟩ | h <;> rw [h]
  · rw [XR.div_fin _ hr.ne']; simp [wt, div_eq_mul_inv]
  · simp [wt]

lemma csumX_some {n : ℕ} (v : Fin n → ℂ) : csumX (fun i => some (v i)) = some (∑ i, v i) := by
  simp [csumX]

/-- squared noise-weighted norm -/
noncomputable def N2 {n : ℕ} (S : Fin n → XR) (h : Fin n → ℂ) : ℝ := ∑ i, ‖h i‖ ^ 2 * wt (S i)

lemma N2_nonneg {n : ℕ} {S : Fin n → XR} (hS : IsPSD S) (h : Fin n → ℂ) : 0 ≤ N2 S h :=
  Finset.sum_nonneg fun i _ => mul_nonneg (sq_nonneg _) (wt_nonneg hS i)

lemma noiseNorm_psd {n : ℕ} {S : Fin n → XR} (hS : IsPSD S) (h : Fin n → ℂ) :
    noiseNorm S h = .fin (√(N2 S h)) := by
  have e : (List.ofFn fun i => XR.fin (‖h i‖ ^ 2) / S i)
      = (List.ofFn fun i => ‖h i‖ ^ 2 * wt (S i)).map XR.fin := by
    rw [List.map_ofFn]; congr 1; funext i; exact xdiv_psd hS i _
  rw [noiseNorm, e, XR.sum_fin, List.sum_ofFn]
  exact XR.sqrt_fin (N2_nonneg hS h)

lemma N2_pos_iff {n : ℕ} {S : Fin n → XR} (hS : IsPSD S) (h : Fin n → ℂ) : 0 < N2 S h ↔ Visible S h := by
  constructor
  · intro hp
    obtain ⟨i, _, hi⟩ := Finset.exists_ne_zero_of_sum_ne_zero hp.ne'
    refine ⟨i, ?_, ?_⟩
    · rintro h0; apply hi; simp [h0]
    · rcases hS i with ⟨r, _, h⟩ | h
      · exact ⟨r, h⟩
      · exfalso; apply hi; simp [h, wt]
  · rintro ⟨i, hi, r, hr⟩
    refine Finset.sum_pos' (fun j _ => mul_nonneg (sq_nonneg _) (wt_nonneg hS j)) ⟨i, Finset.mem_univ _, ?_⟩
    exact mul_pos (by positivity) (wt_pos_of_fin hS hr)

/-- time-shift phase used by the code -/
noncomputable def tph (f t : ℝ) : ℂ := Complex.exp (Complex.I * 2 * Real.pi * f * t)

lemma norm_tph (f t : ℝ) : ‖tph f t‖ = 1 := by
  rw [tph, show Complex.I * 2 * Real.pi * f * t = ((2 * Real.pi * f * t : ℝ) : ℂ) * Complex.I by
    push_cast; ring]
  exact Complex.norm_exp_ofReal_mul_I _

lemma inner_psd {n : ℕ} {S : Fin n → XR} (hS : IsPSD S) (t : ℝ) (fs : Fin n → ℝ) (h1 h2 : Fin n → ℂ) :
    get_phase_maximized_inner_product_arr t fs S h1 h2 =
      .fin ‖∑ i, star (h1 i) * h2 i * tph (fs i) t * (wt (S i) : ℂ)‖ / .fin (√(N2 S h1) * √(N2 S h2)) := by
  simp only [get_phase_maximized_inner_product_arr, noiseNorm_psd hS, cdivX_psd hS, csumX_some, cabsX,
    XR.mul_fin, tph]

/-- Cauchy–Schwarz in the noise-weighted space, with equality case -/
lemma cauchy_schwarz {n : ℕ} {w : Fin n → ℝ} (hw : ∀ i, 0 ≤ w i) (a b : Fin n → ℂ) :
    ‖∑ i, star (a i) * b i * (w i : ℂ)‖ ≤ √(∑ i, ‖a i‖ ^ 2 * w i) * √(∑ i, ‖b i‖ ^ 2 * w i) := by
  have := norm_inner_le_norm (𝕜 := ℂ) (WithLp.toLp 2 fun i => ((√(w i) : ℝ) : ℂ) * a i : EuclideanSpace ℂ (Fin n))
    (WithLp.toLp 2 fun i => ((√(w i) : ℝ) : ℂ) * b i : EuclideanSpace ℂ (Fin n))
  rw [EuclideanSpace.norm_eq, EuclideanSpace.norm_eq, PiLp.inner_apply] at this
  have e : ∀ i, (w i : ℂ) = ((√(w i) : ℝ) : ℂ) * ((√(w i) : ℝ) : ℂ) := fun i => by
    rw [← Complex.ofReal_mul, Real.mul_self_sqrt (hw i)]
  have e2 : ∀ (c : Fin n → ℂ) i, ‖((√(w i) : ℝ) : ℂ) * c i‖ ^ 2 = ‖c i‖ ^ 2 * w i := fun c i => by
    rw [norm_mul, mul_pow, Complex.norm_real, Real.norm_eq_abs, sq_abs, Real.sq_sqrt (hw i), mul_comm]
  simp only [e2] at this
  refine le_trans (le_of_eq ?_) this
  congr 1
  refine Finset.sum_congr rfl fun i _ => ?_
  simp only [RCLike.inner_apply, map_mul, Complex.conj_ofReal, e i]
  simp only [RCLike.star_def]
  ring

lemma cauchy_schwarz_eq {n : ℕ} {w : Fin n → ℝ} (hw : ∀ i, 0 ≤ w i) (a b : Fin n → ℂ)
    (ha : 0 < ∑ i, ‖a i‖ ^ 2 * w i) (hb : 0 < ∑ i, ‖b i‖ ^ 2 * w i) :
    ‖∑ i, star (a i) * b i * (w i : ℂ)‖ = √(∑ i, ‖a i‖ ^ 2 * w i) * √(∑ i, ‖b i‖ ^ 2 * w i) ↔
      ∃ c : ℂ, ∀ i, w i ≠ 0 → b i = c * a i := by
  set x : EuclideanSpace ℂ (Fin n) := WithLp.toLp 2 fun i => ((√(w i) : ℝ) : ℂ) * a i with hx
  set y : EuclideanSpace ℂ (Fin n) := WithLp.toLp 2 fun i => ((√(w i) : ℝ) : ℂ) * b i with hy
  have e : ∀ i, (w i : ℂ) = ((√(w i) : ℝ) : ℂ) * ((√(w i) : ℝ) : ℂ) := fun i => by
    rw [← Complex.ofReal_mul, Real.mul_self_sqrt (hw i)]
  have e2 : ∀ (c : Fin n → ℂ) i, ‖((√(w i) : ℝ) : ℂ) * c i‖ ^ 2 = ‖c i‖ ^ 2 * w i := fun c i => by
    rw [norm_mul, mul_pow, Complex.norm_real, Real.norm_eq_abs, sq_abs, Real.sq_sqrt (hw i), mul_comm]
  have hnx : ‖x‖ = √(∑ i, ‖a i‖ ^ 2 * w i) := by
    rw [EuclideanSpace.norm_eq]; simp only [hx, e2]
  have hny : ‖y‖ = √(∑ i, ‖b i‖ ^ 2 * w i) := by
    rw [EuclideanSpace.norm_eq]; simp only [hy, e2]
  have hin : inner ℂ x y = ∑ i, star (a i) * b i * (w i : ℂ) := by
    rw [PiLp.inner_apply]
    refine Finset.sum_congr rfl fun i _ => ?_
    simp only [hx, hy, RCLike.inner_apply, map_mul, Complex.conj_ofReal, e i]
    simp only [RCLike.star_def]
    ring
  have hx0 : 0 < ‖x‖ := by rw [hnx]; exact Real.sqrt_pos.2 ha
  have hy0 : 0 < ‖y‖ := by rw [hny]; exact Real.sqrt_pos.2 hb
  rw [← hnx, ← hny, ← hin]
  have key := norm_inner_div_norm_mul_norm_eq_one_iff (𝕜 := ℂ) x y
  have h1 : ‖inner ℂ x y / ((‖x‖ : ℂ) * (‖y‖ : ℂ))‖ = 1 ↔ ‖inner ℂ x y‖ = ‖x‖ * ‖y‖ := by
    rw [norm_div, norm_mul, Complex.norm_real, Complex.norm_real, norm_norm, norm_norm,
      div_eq_one_iff_eq (mul_pos hx0 hy0).ne']
  rw [← h1]
  refine key.trans ⟨?_, ?_⟩
  · rintro ⟨_, c, _, hc⟩
    refine ⟨c, fun i hi => ?_⟩
    have hci : y i = c * x i := by rw [hc]; rfl
    have hs : ((√(w i) : ℝ) : ℂ) ≠ 0 := by
      rw [Ne, Complex.ofReal_eq_zero, Real.sqrt_eq_zero (hw i)]; exact hi
    have : ((√(w i) : ℝ) : ℂ) * b i = ((√(w i) : ℝ) : ℂ) * (c * a i) := by
      have h3 : ((√(w i) : ℝ) : ℂ) * b i = c * (((√(w i) : ℝ) : ℂ) * a i) := hci
      rw [h3]; ring
    exact mul_left_cancel₀ hs this
  · rintro ⟨c, hc⟩
    have hyx : y = c • x := by
      ext i
      show ((√(w i) : ℝ) : ℂ) * b i = c * (((√(w i) : ℝ) : ℂ) * a i)
      by_cases hi : w i = 0
      · simp [hi]
      · rw [hc i hi]; ring
    refine ⟨norm_pos_iff.1 hx0, c, ?_, hyx⟩
    rintro rfl
    rw [hyx, zero_smul, norm_zero] at hy0
    exact lt_irrefl _ hy0

/-- DFT kernel `exp(2πi k j / N)` -/
noncomputable def dft (N k j : ℕ) : ℂ := Complex.exp (2 * Real.pi * Complex.I * k * j / (N : ℂ))

lemma norm_dft (N k j : ℕ) : ‖dft N k j‖ = 1 := by
  rw [dft, show 2 * Real.pi * Complex.I * k * j / (N : ℂ) = ((2 * Real.pi * k * j / N : ℝ) : ℂ) * Complex.I by
    push_cast; ring]
  exact Complex.norm_exp_ofReal_mul_I _

lemma dft_add (N k i j : ℕ) : dft N k (i + j) = dft N k i * dft N k j := by
  rw [dft, dft, dft, ← Complex.exp_add]; congr 1; push_cast; ring

lemma match_psd {a n b : ℕ} {S : Fin n → XR} (hS : IsPSD S) (h1 h2 : Fin n → ℂ) :
    get_match_arr (fun _ : Fin a => 0) (fun _ : Fin b => 0) S h1 h2 =
      .fin (⨆ k : Fin (a + n + b), ‖∑ i : Fin n, star (h1 i) * h2 i * (wt (S i) : ℂ) * dft (a + n + b) k i‖) /
        .fin (√(N2 S h1) * √(N2 S h2)) := by
  simp only [get_match_arr, noiseNorm_psd hS, cdivX_psd hS, XR.mul_fin]
  congr 1
  set x : Fin (a + n + b) → ℂ := Fin.append (Fin.append (fun _ : Fin a => (0 : ℂ))
    (fun i => star (h1 i) * h2 i * (wt (S i) : ℂ))) (fun _ : Fin b => 0) with hx
  have hxs : (Fin.append (Fin.append (fun _ : Fin a => some (0 : ℂ))
      (fun i => some (star (h1 i) * h2 i * (wt (S i) : ℂ)))) (fun _ : Fin b => some 0)) = fun i => some (x i) := by
    funext i
    refine Fin.addCases (fun j => ?_) (fun j => ?_) i
    · rw [Fin.append_left, hx, Fin.append_left]
      refine Fin.addCases (fun l => ?_) (fun l => ?_) j
      · rw [Fin.append_left, Fin.append_left]
      · rw [Fin.append_right, Fin.append_right]
    · rw [Fin.append_right, hx, Fin.append_right]
  rw [hxs]
  have hk : ∀ k : Fin (a + n + b), cabsX ((ifftX (fun i => some (x i)) k).map fun z => ((a + n + b : ℕ) : ℂ) * z)
      = .fin ‖∑ i : Fin n, star (h1 i) * h2 i * (wt (S i) : ℂ) * dft (a + n + b) k i‖ := by
    intro k
    have hN : ((a + n + b : ℕ) : ℂ) ≠ 0 := by
      have : 0 < a + n + b := lt_of_le_of_lt (Nat.zero_le _) k.2
      exact_mod_cast this.ne'
    simp only [ifftX, Option.isSome_some, implies_true, if_true, Option.getD_some, Option.map_some, cabsX, ifft]
    congr 1
    rw [← mul_assoc, mul_one_div_cancel hN, one_mul]
    rw [Fin.sum_univ_add, Fin.sum_univ_add]
    simp only [hx, Fin.append_left, Fin.append_right, zero_mul, Finset.sum_const_zero, zero_add, add_zero,
      Fin.val_castAdd, Fin.val_natAdd]
    have : ∀ i : Fin n, Complex.exp (2 * Real.pi * Complex.I * (k : ℕ) * ((a + (i : ℕ) : ℕ) : ℂ) / ((a + n + b : ℕ) : ℂ))
        = dft (a + n + b) k a * dft (a + n + b) k i := fun i => dft_add _ _ _ _
    simp only [this]
    have e2 : ∀ i : Fin n, star (h1 i) * h2 i * (wt (S i) : ℂ) * (dft (a + n + b) k a * dft (a + n + b) k i)
      = dft (a + n + b) k a * (star (h1 i) * h2 i * (wt (S i) : ℂ) * dft (a + n + b) k i) := fun i => by ring
    simp only [e2]
    rw [← Finset.mul_sum, norm_mul, norm_dft, one_mul]
  simp only [hk, maxX, XR.isFin_fin, implies_true, if_true]

/-- each of the finitely many values is below the maximum -/
lemma le_sup_fin {N : ℕ} (v : Fin N → ℝ) (k : Fin N) : v k ≤ ⨆ k, v k :=
  le_ciSup (Set.finite_range v).bddAbove k

lemma sup_fin_le {N : ℕ} (v : Fin N → ℝ) {c : ℝ} (hN : 0 < N) (h : ∀ k, v k ≤ c) : ⨆ k, v k ≤ c :=
  haveI : Nonempty (Fin N) := ⟨⟨0, hN⟩⟩
  ciSup_le h

/-- a permutation of the index set does not change the maximum -/
lemma sup_fin_equiv {N : ℕ} (e : Fin N ≃ Fin N) (v : Fin N → ℝ) : ⨆ k, v (e k) = ⨆ k, v k :=
  e.iSup_comp

lemma dft_nat_mod (N k j : ℕ) (hN : 0 < N) : dft N (k % N) j = dft N k j := by
  have hNc : (N : ℂ) ≠ 0 := by exact_mod_cast hN.ne'
  have h : (k : ℂ) = (k % N : ℕ) + N * (k / N : ℕ) := by
    exact_mod_cast (Nat.mod_add_div k N).symm
  rw [dft, dft, h]
  rw [show 2 * Real.pi * Complex.I * (((k % N : ℕ) : ℂ) + N * ((k / N : ℕ) : ℂ)) * j / (N : ℂ)
    = 2 * Real.pi * Complex.I * ((k % N : ℕ) : ℂ) * j / N + ((k / N * j : ℕ) : ℂ) * (2 * Real.pi * Complex.I) by
      push_cast; field_simp]
  rw [Complex.exp_add, Complex.exp_nat_mul_two_pi_mul_I, mul_one]

lemma dft_add_left (N k l j : ℕ) : dft N (k + l) j = dft N k j * dft N l j := by
  rw [dft, dft, dft, ← Complex.exp_add]; congr 1; push_cast; ring

lemma star_dft (N k j : ℕ) : star (dft N k j) * dft N k j = 1 := by
  have := norm_dft N k j
  rw [RCLike.star_def, Complex.conj_mul', this]; simp

lemma dft_zero (N j : ℕ) : dft N 0 j = 1 := by simp [dft]

lemma dft_self (N j : ℕ) (hN : 0 < N) : dft N N j = 1 := by
  rw [← dft_nat_mod N N j hN, Nat.mod_self, dft_zero]

variable {n : ℕ}

/-- the overlap of two visible strains is the expected normalised modulus (used below) -/
lemma inner_fin {S : Fin n → XR} (hS : IsPSD S) (t : ℝ) (fs : Fin n → ℝ) {h1 h2 : Fin n → ℂ}
    (hv1 : Visible S h1) (hv2 : Visible S h2) :
    get_phase_maximized_inner_product_arr t fs S h1 h2 =
      .fin (‖∑ i, star (h1 i) * h2 i * tph (fs i) t * (wt (S i) : ℂ)‖ / (√(N2 S h1) * √(N2 S h2))) := by
  have a := Real.sqrt_pos.2 ((N2_pos_iff hS h1).2 hv1)
  have b := Real.sqrt_pos.2 ((N2_pos_iff hS h2).2 hv2)
  rw [inner_psd hS, XR.div_fin _ (mul_pos a b).ne']

lemma N2_tph (S : Fin n → XR) (h : Fin n → ℂ) (fs : Fin n → ℝ) (t : ℝ) :
    ∑ i, ‖h i * tph (fs i) t‖ ^ 2 * wt (S i) = N2 S h := by
  simp only [norm_mul, norm_tph, mul_one, N2]

lemma N2_smul (S : Fin n → XR) (h : Fin n → ℂ) (c : ℂ) : N2 S (fun i => c * h i) = ‖c‖ ^ 2 * N2 S h := by
  simp only [N2, norm_mul, mul_pow, mul_assoc, Finset.mul_sum]

lemma div_scale {x y c : ℝ} (hc : c ≠ 0) : XR.fin (c * x) / XR.fin (c * y) = XR.fin x / XR.fin y ∨ c < 0 := by
  rcases lt_or_gt_of_ne hc with h | h
  · right; exact h
  · left
    by_cases hy : y = 0
    · subst hy; rw [mul_zero]
      rcases lt_trichotomy x 0 with hx | rfl | hx
      · rw [XR.div_fin_zero_neg hx, XR.div_fin_zero_neg (mul_neg_of_pos_of_neg h hx)]
      · rw [mul_zero]
      · rw [XR.div_fin_zero_pos hx, XR.div_fin_zero_pos (mul_pos h hx)]
    · rw [XR.div_fin _ hy, XR.div_fin _ (mul_ne_zero hc hy), mul_div_mul_left _ _ hc]

lemma div_scale_pos {x y c : ℝ} (hc : 0 < c) : XR.fin (c * x) / XR.fin (c * y) = XR.fin x / XR.fin y := by
  rcases div_scale (x := x) (y := y) hc.ne' with h | h
  · exact h
  · linarith

lemma isPSD_scale {S : Fin n → XR} (hS : IsPSD S) {c : ℝ} (hc : 0 < c) : IsPSD (scalePSD c S) := by
  intro i
  rcases hS i with ⟨r, hr, h⟩ | h
  · left; exact ⟨c * r, mul_pos hc hr, by simp [scalePSD, h]⟩
  · right; simp [scalePSD, h]

lemma wt_scale {S : Fin n → XR} (hS : IsPSD S) {c : ℝ} (i : Fin n) :
    wt (scalePSD c S i) = c⁻¹ * wt (S i) := by
  rcases hS i with ⟨r, _, h⟩ | h <;> simp [scalePSD, h, wt, mul_comm]

lemma N2_scalePSD {S : Fin n → XR} (hS : IsPSD S) (c : ℝ) (h : Fin n → ℂ) :
    N2 (scalePSD c S) h = c⁻¹ * N2 S h := by
  simp only [N2, wt_scale hS, Finset.mul_sum]
  exact Finset.sum_congr rfl fun i _ => by ring

lemma match_fin {a b : ℕ} {S : Fin n → XR} (hS : IsPSD S) {h1 h2 : Fin n → ℂ}
    (hv1 : Visible S h1) (hv2 : Visible S h2) :
    get_match_arr (fun _ : Fin a => 0) (fun _ : Fin b => 0) S h1 h2 =
      .fin ((⨆ k : Fin (a + n + b), ‖∑ i : Fin n, star (h1 i) * h2 i * (wt (S i) : ℂ) * dft (a + n + b) k i‖) /
        (√(N2 S h1) * √(N2 S h2))) := by
  have a := Real.sqrt_pos.2 ((N2_pos_iff hS h1).2 hv1)
  have b := Real.sqrt_pos.2 ((N2_pos_iff hS h2).2 hv2)
  rw [match_psd hS, XR.div_fin _ (mul_pos a b).ne']

lemma dft_cauchy {N : ℕ} {S : Fin n → XR} (hS : IsPSD S) (h1 h2 : Fin n → ℂ) (k : ℕ) :
    ‖∑ i : Fin n, star (h1 i) * h2 i * (wt (S i) : ℂ) * dft N k i‖ ≤ √(N2 S h1) * √(N2 S h2) := by
  have := cauchy_schwarz (fun i => wt_nonneg hS i) h1 (fun i => h2 i * dft N k i)
  simp only [norm_mul, norm_dft, mul_one] at this
  refine le_trans (le_of_eq ?_) this
  congr 1
  exact Finset.sum_congr rfl fun i _ => by ring

lemma N_pos_of_visible {S : Fin n → XR} {h : Fin n → ℂ} (hv : Visible S h) (a b : ℕ) : 0 < a + n + b := by
  obtain ⟨i, _⟩ := hv
  have := i.2; omega

end Ripple

/-
  Properties C12–C19: overlaps and matches (src/ripplegw/__init__.py:375-518).
  All statements are for arrays of every length `n`, all pads, all strains.
-/
import Verif.Proofs.Match

namespace Ripple
open Jnp Spec

variable {n : ℕ}

/-! ### C12 -/

theorem C12_overlap_in_unit_interval (t : ℝ) (fs : Fin n → ℝ) (S : Fin n → XR) (h1 h2 : Fin n → ℂ)
    (hS : IsPSD S) (hv1 : Visible S h1) (hv2 : Visible S h2) :
    ∃ v : ℝ, get_phase_maximized_inner_product_arr t fs S h1 h2 = .fin v ∧ 0 ≤ v ∧ v ≤ 1 := by
  refine ⟨_, inner_fin hS t fs hv1 hv2, by positivity, ?_⟩
  have a := Real.sqrt_pos.2 ((N2_pos_iff hS h1).2 hv1)
  have b := Real.sqrt_pos.2 ((N2_pos_iff hS h2).2 hv2)
  rw [div_le_one (mul_pos a b)]
  have := cauchy_schwarz (fun i => wt_nonneg hS i) h1 (fun i => h2 i * tph (fs i) t)
  rw [N2_tph] at this
  simpa only [N2, mul_assoc] using this

/-- witness: a two-bin PSD with an infinite bin and strains meeting the hypotheses -/
example : ∃ (S : Fin 2 → XR) (h1 h2 : Fin 2 → ℂ), IsPSD S ∧ Visible S h1 ∧ Visible S h2 ∧ h1 ≠ h2 := by
  refine ⟨![.fin 2, .pinf], ![1, 0], ![Complex.I, 5], ?_, ⟨0, by simp, 2, rfl⟩, ⟨0, by simp, 2, rfl⟩, ?_⟩
  · intro i; fin_cases i
    · left; exact ⟨2, by norm_num, rfl⟩
    · right; rfl
  · intro h; have := congrFun h 1; simp at this

/-! ### C13 -/

theorem C13_overlap_one_iff (t : ℝ) (fs : Fin n → ℝ) (S : Fin n → XR) (h1 h2 : Fin n → ℂ)
    (hS : IsPSD S) (hv1 : Visible S h1) (hv2 : Visible S h2) :
    get_phase_maximized_inner_product_arr t fs S h1 h2 = .fin 1 ↔
      ∃ c : ℂ, ∀ i, (∃ r, S i = .fin r) → h2 i * Complex.exp (2 * Real.pi * Complex.I * fs i * t) = c * h1 i := by
  have a := (N2_pos_iff hS h1).2 hv1
  have b := (N2_pos_iff hS h2).2 hv2
  have a' := Real.sqrt_pos.2 a
  have b' := Real.sqrt_pos.2 b
  rw [inner_fin hS t fs hv1 hv2, XR.fin.injEq, div_eq_one_iff_eq (mul_pos a' b').ne']
  have key := cauchy_schwarz_eq (fun i => wt_nonneg hS i) h1 (fun i => h2 i * tph (fs i) t) a
    (by rw [N2_tph]; exact b)
  rw [N2_tph] at key
  have e : ∀ i, tph (fs i) t = Complex.exp (2 * Real.pi * Complex.I * fs i * t) := fun i => by
    rw [tph]; congr 1; ring
  have hw : ∀ i, wt (S i) ≠ 0 ↔ ∃ r, S i = .fin r := fun i => by
    constructor
    · intro h
      rcases hS i with ⟨r, _, h'⟩ | h'
      · exact ⟨r, h'⟩
      · rw [h'] at h; simp [wt] at h
    · rintro ⟨r, hr⟩; exact (wt_pos_of_fin hS hr).ne'
  simp only [mul_assoc, hw] at key ⊢
  simp only [e, mul_assoc, N2] at key ⊢
  exact key

theorem C13_self_overlap (fs : Fin n → ℝ) (S : Fin n → XR) (h : Fin n → ℂ) (hS : IsPSD S) (hv : Visible S h) :
    get_phase_maximized_inner_product_arr 0 fs S h h = .fin 1 :=
  (C13_overlap_one_iff 0 fs S h h hS hv hv).2 ⟨1, fun i _ => by simp⟩

/-! ### C14 -/

theorem C14_scale_left (t : ℝ) (fs : Fin n → ℝ) (S : Fin n → XR) (h1 h2 : Fin n → ℂ) (c : ℂ)
    (hS : IsPSD S) (hc : c ≠ 0) :
    get_phase_maximized_inner_product_arr t fs S (fun i => c * h1 i) h2 =
      get_phase_maximized_inner_product_arr t fs S h1 h2 := by
  have hc' : 0 < ‖c‖ := norm_pos_iff.2 hc
  rw [inner_psd hS, inner_psd hS, N2_smul, Real.sqrt_mul (sq_nonneg _), Real.sqrt_sq hc'.le]
  have e : ∑ i, star (c * h1 i) * h2 i * tph (fs i) t * (wt (S i) : ℂ)
      = star c * ∑ i, star (h1 i) * h2 i * tph (fs i) t * (wt (S i) : ℂ) := by
    rw [Finset.mul_sum]; refine Finset.sum_congr rfl fun i _ => ?_
    rw [star_mul']; ring
  rw [e, norm_mul, norm_star, mul_assoc ‖c‖, div_scale_pos hc']

theorem C14_scale_right (t : ℝ) (fs : Fin n → ℝ) (S : Fin n → XR) (h1 h2 : Fin n → ℂ) (c : ℂ)
    (hS : IsPSD S) (hc : c ≠ 0) :
    get_phase_maximized_inner_product_arr t fs S h1 (fun i => c * h2 i) =
      get_phase_maximized_inner_product_arr t fs S h1 h2 := by
  have hc' : 0 < ‖c‖ := norm_pos_iff.2 hc
  rw [inner_psd hS, inner_psd hS, N2_smul, Real.sqrt_mul (sq_nonneg _), Real.sqrt_sq hc'.le]
  have e : ∑ i, star (h1 i) * (c * h2 i) * tph (fs i) t * (wt (S i) : ℂ)
      = c * ∑ i, star (h1 i) * h2 i * tph (fs i) t * (wt (S i) : ℂ) := by
    rw [Finset.mul_sum]; refine Finset.sum_congr rfl fun i _ => ?_
    ring
  rw [e, norm_mul, mul_left_comm, div_scale_pos hc']

theorem C14_scale_psd (t : ℝ) (fs : Fin n → ℝ) (S : Fin n → XR) (h1 h2 : Fin n → ℂ) (c : ℝ)
    (hS : IsPSD S) (hc : 0 < c) :
    get_phase_maximized_inner_product_arr t fs (scalePSD c S) h1 h2 =
      get_phase_maximized_inner_product_arr t fs S h1 h2 := by
  have hci : 0 < c⁻¹ := inv_pos.2 hc
  rw [inner_psd hS, inner_psd (isPSD_scale hS hc), N2_scalePSD hS, N2_scalePSD hS,
    Real.sqrt_mul hci.le, Real.sqrt_mul hci.le]
  have e : ∑ i, star (h1 i) * h2 i * tph (fs i) t * (wt (scalePSD c S i) : ℂ)
      = ((c⁻¹ : ℝ) : ℂ) * ∑ i, star (h1 i) * h2 i * tph (fs i) t * (wt (S i) : ℂ) := by
    rw [Finset.mul_sum]; refine Finset.sum_congr rfl fun i _ => ?_
    rw [wt_scale hS]; push_cast; ring
  have e2 : √c⁻¹ * √(N2 S h1) * (√c⁻¹ * √(N2 S h2)) = c⁻¹ * (√(N2 S h1) * √(N2 S h2)) := by
    have := Real.mul_self_sqrt hci.le
    linear_combination (√(N2 S h1) * √(N2 S h2)) * this
  rw [e, norm_mul, Complex.norm_real, Real.norm_eq_abs, abs_of_pos hci, e2, div_scale_pos hci]

theorem C14_exchange (t : ℝ) (fs : Fin n → ℝ) (S : Fin n → XR) (h1 h2 : Fin n → ℂ) (hS : IsPSD S) :
    get_phase_maximized_inner_product_arr t fs S h2 h1 =
      get_phase_maximized_inner_product_arr (-t) fs S h1 h2 := by
  rw [inner_psd hS, inner_psd hS, mul_comm (√(N2 S h2))]
  have e : ∑ i, star (h2 i) * h1 i * tph (fs i) t * (wt (S i) : ℂ)
      = star (∑ i, star (h1 i) * h2 i * tph (fs i) (-t) * (wt (S i) : ℂ)) := by
    rw [star_sum]; refine Finset.sum_congr rfl fun i _ => ?_
    have et : star (tph (fs i) (-t)) = tph (fs i) t := by
      have e0 : ∀ f t : ℝ, Complex.I * 2 * Real.pi * f * t = ((2 * Real.pi * f * t : ℝ) : ℂ) * Complex.I :=
        fun f t => by push_cast; ring
      simp only [tph, RCLike.star_def, ← Complex.exp_conj]
      rw [e0, e0, map_mul, Complex.conj_ofReal, Complex.conj_I]
      congr 1; push_cast; ring
    rw [star_mul', star_mul', star_mul', et, star_star]
    simp only [RCLike.star_def, Complex.conj_ofReal]
    ring
  rw [e, norm_star]

theorem C14_time_shift (t t0 : ℝ) (fs : Fin n → ℝ) (S : Fin n → XR) (h1 h2 : Fin n → ℂ) (hS : IsPSD S) :
    get_phase_maximized_inner_product_arr t fs S h1
        (fun i => h2 i * Complex.exp (2 * Real.pi * Complex.I * fs i * t0)) =
      get_phase_maximized_inner_product_arr (t + t0) fs S h1 h2 := by
  have e : ∀ i, Complex.exp (2 * Real.pi * Complex.I * fs i * t0) = tph (fs i) t0 := fun i => by
    rw [tph]; congr 1; ring
  have e3 : ∀ i, tph (fs i) (t + t0) = tph (fs i) t * tph (fs i) t0 := fun i => by
    rw [tph, tph, tph, ← Complex.exp_add]; congr 1; push_cast; ring
  simp only [e]
  rw [inner_psd hS, inner_psd hS]
  have e2 : N2 S (fun i => h2 i * tph (fs i) t0) = N2 S h2 := N2_tph S h2 fs t0
  rw [e2]
  congr 3
  refine Finset.sum_congr rfl fun i _ => ?_
  rw [e3]; ring

/-! ### C15 -/

theorem C15_match_in_unit_interval {a b : ℕ} (S : Fin n → XR) (h1 h2 : Fin n → ℂ)
    (hS : IsPSD S) (hv1 : Visible S h1) (hv2 : Visible S h2) :
    ∃ v : ℝ, get_match_arr (fun _ : Fin a => 0) (fun _ : Fin b => 0) S h1 h2 = .fin v ∧ 0 ≤ v ∧ v ≤ 1 := by
  have ha := Real.sqrt_pos.2 ((N2_pos_iff hS h1).2 hv1)
  have hb := Real.sqrt_pos.2 ((N2_pos_iff hS h2).2 hv2)
  refine ⟨_, match_fin hS hv1 hv2, ?_, ?_⟩
  · exact div_nonneg (Real.iSup_nonneg fun _ => norm_nonneg _) (mul_pos ha hb).le
  · rw [div_le_one (mul_pos ha hb)]
    exact sup_fin_le _ (N_pos_of_visible hv1 a b) fun k => dft_cauchy hS h1 h2 k

theorem C15_self_match {a b : ℕ} (S : Fin n → XR) (h : Fin n → ℂ) (c : ℂ)
    (hS : IsPSD S) (hv : Visible S h) (hc : c ≠ 0) :
    get_match_arr (fun _ : Fin a => 0) (fun _ : Fin b => 0) S h (fun i => c * h i) = .fin 1 := by
  have hv2 : Visible S (fun i => c * h i) := by
    obtain ⟨i, hi, r, hr⟩ := hv; exact ⟨i, mul_ne_zero hc hi, r, hr⟩
  have ha := Real.sqrt_pos.2 ((N2_pos_iff hS h).2 hv)
  have hb := Real.sqrt_pos.2 ((N2_pos_iff hS _).2 hv2)
  rw [match_fin hS hv hv2, XR.fin.injEq, div_eq_one_iff_eq (mul_pos ha hb).ne']
  have hN := N_pos_of_visible hv a b
  refine le_antisymm (sup_fin_le _ hN fun k => dft_cauchy hS h _ k) ?_
  refine le_trans (le_of_eq ?_) (le_sup_fin _ ⟨0, hN⟩)
  have key := (cauchy_schwarz_eq (fun i => wt_nonneg hS i) h (fun i => c * h i) ((N2_pos_iff hS h).2 hv)
    ((N2_pos_iff hS _).2 hv2)).2 ⟨c, fun i _ => rfl⟩
  simp only [dft_zero, mul_one]
  rw [N2, N2, ← key]

/-! ### C16 -/

theorem C16_match_is_max_over_time {a b : ℕ} (fs : Fin n → ℝ) (f0 df : ℝ) (S : Fin n → XR) (h1 h2 : Fin n → ℂ)
    (hdf : 0 < df) (hfs : UniformGrid fs f0 df) (hS : IsPSD S) (hv1 : Visible S h1) (hv2 : Visible S h2) :
    ∃ v : ℝ, get_match_arr (fun _ : Fin a => 0) (fun _ : Fin b => 0) S h1 h2 = .fin v ∧
      (∃ k : Fin (a + n + b), get_phase_maximized_inner_product_arr
        ((k : ℕ) / (((a + n + b : ℕ) : ℝ) * df)) fs S h1 h2 = .fin v) ∧
      (∀ k : Fin (a + n + b), ∃ u : ℝ, get_phase_maximized_inner_product_arr
        ((k : ℕ) / (((a + n + b : ℕ) : ℝ) * df)) fs S h1 h2 = .fin u ∧ u ≤ v) := by
  have hN := N_pos_of_visible hv1 a b
  have ha := Real.sqrt_pos.2 ((N2_pos_iff hS h1).2 hv1)
  have hb := Real.sqrt_pos.2 ((N2_pos_iff hS h2).2 hv2)
  have key : ∀ k : Fin (a + n + b), get_phase_maximized_inner_product_arr
        ((k : ℕ) / (((a + n + b : ℕ) : ℝ) * df)) fs S h1 h2 =
      .fin (‖∑ i : Fin n, star (h1 i) * h2 i * (wt (S i) : ℂ) * dft (a + n + b) k i‖ /
        (√(N2 S h1) * √(N2 S h2))) := by
    intro k
    rw [inner_fin hS _ fs hv1 hv2]
    congr 2
    have hNr : ((a + n + b : ℕ) : ℂ) ≠ 0 := by exact_mod_cast hN.ne'
    have hdfc : (df : ℂ) ≠ 0 := by exact_mod_cast hdf.ne'
    have e : ∀ i : Fin n, tph (fs i) ((k : ℕ) / (((a + n + b : ℕ) : ℝ) * df))
        = tph f0 ((k : ℕ) / (((a + n + b : ℕ) : ℝ) * df)) * dft (a + n + b) k i := fun i => by
      rw [tph, tph, dft, ← Complex.exp_add, hfs i]
      congr 1
      push_cast at hNr ⊢
      field_simp
    have e2 : ∑ i : Fin n, star (h1 i) * h2 i * tph (fs i) ((k : ℕ) / (((a + n + b : ℕ) : ℝ) * df)) * (wt (S i) : ℂ)
        = tph f0 ((k : ℕ) / (((a + n + b : ℕ) : ℝ) * df)) *
          ∑ i : Fin n, star (h1 i) * h2 i * (wt (S i) : ℂ) * dft (a + n + b) k i := by
      rw [Finset.mul_sum]; refine Finset.sum_congr rfl fun i _ => ?_
      rw [e]; ring
    rw [e2, norm_mul, norm_tph, one_mul]
  have : Nonempty (Fin (a + n + b)) := ⟨⟨0, hN⟩⟩
  refine ⟨_, match_fin hS hv1 hv2, ?_, ?_⟩
  · obtain ⟨k, hk⟩ := exists_eq_ciSup_of_finite
      (f := fun k : Fin (a + n + b) => ‖∑ i : Fin n, star (h1 i) * h2 i * (wt (S i) : ℂ) * dft (a + n + b) k i‖)
    exact ⟨k, by rw [key k, ← hk]⟩
  · intro k
    refine ⟨_, key k, ?_⟩
    gcongr
    exact le_sup_fin (fun k : Fin (a + n + b) => ‖∑ i : Fin n, star (h1 i) * h2 i * (wt (S i) : ℂ) * dft (a + n + b) k i‖) k

/-- witness: a three-point grid starting at an integer multiple of df -/
example : UniformGrid (n := 3) ![2, 2.5, 3] 2 0.5 := by
  intro i; fin_cases i <;> norm_num

/-! ### C17 -/

theorem C17_symmetric {a b : ℕ} (S : Fin n → XR) (h1 h2 : Fin n → ℂ) (hS : IsPSD S) :
    get_match_arr (fun _ : Fin a => 0) (fun _ : Fin b => 0) S h1 h2 =
      get_match_arr (fun _ : Fin a => 0) (fun _ : Fin b => 0) S h2 h1 := by
  rw [match_psd hS, match_psd hS, mul_comm (√(N2 S h1))]
  congr 2
  rcases Nat.eq_zero_or_pos (a + n + b) with h0 | hN
  · have : IsEmpty (Fin (a + n + b)) := by rw [h0]; infer_instance
    rw [Real.iSup_of_isEmpty, Real.iSup_of_isEmpty]
  have : NeZero (a + n + b) := ⟨hN.ne'⟩
  rw [← sup_fin_equiv (Equiv.neg (Fin (a + n + b)))]
  congr 1
  funext k
  have e : ∀ i : Fin n, dft (a + n + b) ((Equiv.neg (Fin (a + n + b)) k : Fin (a + n + b)) : ℕ) i
      = star (dft (a + n + b) k i) := fun i => by
    have h1 : dft (a + n + b) ((Equiv.neg (Fin (a + n + b)) k : Fin (a + n + b)) : ℕ) i * dft (a + n + b) k i = 1 := by
      rw [← dft_add_left]
      rw [← dft_nat_mod _ _ _ hN]
      have : ((Equiv.neg (Fin (a + n + b)) k : Fin (a + n + b)) : ℕ) + (k : ℕ) ≡ 0 [MOD (a + n + b)] := by
        have h := neg_add_cancel k
        have h' := congrArg Fin.val h
        rw [Fin.val_add] at h'
        simpa [Nat.ModEq] using h'
      rw [this, Nat.zero_mod, dft_zero]
    have h2 := star_dft (a + n + b) k i
    have h3 : dft (a + n + b) k i ≠ 0 := by
      rw [← norm_pos_iff, norm_dft]; exact one_pos
    exact mul_right_cancel₀ h3 (h1.trans h2.symm)
  have e2 : ∑ i : Fin n, star (h1 i) * h2 i * (wt (S i) : ℂ) *
        dft (a + n + b) ((Equiv.neg (Fin (a + n + b)) k : Fin (a + n + b)) : ℕ) i
      = star (∑ i : Fin n, star (h2 i) * h1 i * (wt (S i) : ℂ) * dft (a + n + b) k i) := by
    rw [star_sum]; refine Finset.sum_congr rfl fun i _ => ?_
    rw [e, star_mul', star_mul', star_mul', star_star]
    simp only [RCLike.star_def, Complex.conj_ofReal]
    ring
  rw [e2, norm_star]

theorem C17_scale {a b : ℕ} (S : Fin n → XR) (h1 h2 : Fin n → ℂ) (c d : ℂ) (hS : IsPSD S)
    (hc : c ≠ 0) (hd : d ≠ 0) :
    get_match_arr (fun _ : Fin a => 0) (fun _ : Fin b => 0) S (fun i => c * h1 i) (fun i => d * h2 i) =
      get_match_arr (fun _ : Fin a => 0) (fun _ : Fin b => 0) S h1 h2 := by
  have hc' : 0 < ‖c‖ := norm_pos_iff.2 hc
  have hd' : 0 < ‖d‖ := norm_pos_iff.2 hd
  rw [match_psd hS, match_psd hS, N2_smul, N2_smul, Real.sqrt_mul (sq_nonneg _), Real.sqrt_sq hc'.le,
    Real.sqrt_mul (sq_nonneg _), Real.sqrt_sq hd'.le]
  have e : ∀ k : Fin (a + n + b), ‖∑ i : Fin n, star (c * h1 i) * (d * h2 i) * (wt (S i) : ℂ) * dft (a + n + b) k i‖
      = (‖c‖ * ‖d‖) * ‖∑ i : Fin n, star (h1 i) * h2 i * (wt (S i) : ℂ) * dft (a + n + b) k i‖ := fun k => by
    have : ∑ i : Fin n, star (c * h1 i) * (d * h2 i) * (wt (S i) : ℂ) * dft (a + n + b) k i
        = (star c * d) * ∑ i : Fin n, star (h1 i) * h2 i * (wt (S i) : ℂ) * dft (a + n + b) k i := by
      rw [Finset.mul_sum]; refine Finset.sum_congr rfl fun i _ => ?_
      rw [star_mul']; ring
    rw [this, norm_mul, norm_mul, norm_star]
  simp only [e]
  rw [← Real.mul_iSup_of_nonneg (by positivity),
    show ‖c‖ * √(N2 S h1) * (‖d‖ * √(N2 S h2)) = (‖c‖ * ‖d‖) * (√(N2 S h1) * √(N2 S h2)) by ring,
    div_scale_pos (by positivity)]

theorem C17_scale_psd {a b : ℕ} (S : Fin n → XR) (h1 h2 : Fin n → ℂ) (c : ℝ) (hS : IsPSD S) (hc : 0 < c) :
    get_match_arr (fun _ : Fin a => 0) (fun _ : Fin b => 0) (scalePSD c S) h1 h2 =
      get_match_arr (fun _ : Fin a => 0) (fun _ : Fin b => 0) S h1 h2 := by
  have hci : 0 < c⁻¹ := inv_pos.2 hc
  rw [match_psd hS, match_psd (isPSD_scale hS hc), N2_scalePSD hS, N2_scalePSD hS,
    Real.sqrt_mul hci.le, Real.sqrt_mul hci.le]
  have e : ∀ k : Fin (a + n + b), ‖∑ i : Fin n, star (h1 i) * h2 i * (wt (scalePSD c S i) : ℂ) * dft (a + n + b) k i‖
      = c⁻¹ * ‖∑ i : Fin n, star (h1 i) * h2 i * (wt (S i) : ℂ) * dft (a + n + b) k i‖ := fun k => by
    have : ∑ i : Fin n, star (h1 i) * h2 i * (wt (scalePSD c S i) : ℂ) * dft (a + n + b) k i
        = ((c⁻¹ : ℝ) : ℂ) * ∑ i : Fin n, star (h1 i) * h2 i * (wt (S i) : ℂ) * dft (a + n + b) k i := by
      rw [Finset.mul_sum]; refine Finset.sum_congr rfl fun i _ => ?_
      rw [wt_scale hS]; push_cast; ring
    rw [this, norm_mul, Complex.norm_real, Real.norm_eq_abs, abs_of_pos hci]
  have e2 : √c⁻¹ * √(N2 S h1) * (√c⁻¹ * √(N2 S h2)) = c⁻¹ * (√(N2 S h1) * √(N2 S h2)) := by
    have := Real.mul_self_sqrt hci.le
    linear_combination (√(N2 S h1) * √(N2 S h2)) * this
  simp only [e]
  rw [← Real.mul_iSup_of_nonneg hci.le, e2, div_scale_pos hci]

/-- only the total padded length matters, not how it is split -/
theorem C17_pad_split {a b a' b' : ℕ} (S : Fin n → XR) (h1 h2 : Fin n → ℂ) (hS : IsPSD S) (h : a + b = a' + b') :
    get_match_arr (fun _ : Fin a => 0) (fun _ : Fin b => 0) S h1 h2 =
      get_match_arr (fun _ : Fin a' => 0) (fun _ : Fin b' => 0) S h1 h2 := by
  rw [match_psd hS, match_psd hS]
  have hN : a + n + b = a' + n + b' := by omega
  congr 2
  generalize a + n + b = N at hN
  subst hN
  rfl

/-- a time shift of the second waveform by l/(N·df) leaves the match unchanged -/
theorem C17_time_shift {a b : ℕ} (fs : Fin n → ℝ) (f0 df : ℝ) (S : Fin n → XR) (h1 h2 : Fin n → ℂ) (l : ℕ)
    (hdf : 0 < df) (hfs : UniformGrid fs f0 df) (hS : IsPSD S) :
    get_match_arr (fun _ : Fin a => 0) (fun _ : Fin b => 0) S h1
        (fun i => h2 i * Complex.exp (2 * Real.pi * Complex.I * fs i * ((l / (((a + n + b : ℕ) : ℝ) * df) : ℝ) : ℂ))) =
      get_match_arr (fun _ : Fin a => 0) (fun _ : Fin b => 0) S h1 h2 := by
  rcases Nat.eq_zero_or_pos n with h0 | hn
  · subst h0
    have : ∀ x y : Fin 0 → ℂ, x = y := fun x y => Subsingleton.elim _ _
    rw [this (fun i => h2 i * _) h2]
  have hN : 0 < a + n + b := by omega
  have hNr : ((a + n + b : ℕ) : ℂ) ≠ 0 := by exact_mod_cast hN.ne'
  have hdfc : (df : ℂ) ≠ 0 := by exact_mod_cast hdf.ne'
  have : NeZero (a + n + b) := ⟨hN.ne'⟩
  set t : ℝ := l / (((a + n + b : ℕ) : ℝ) * df) with ht
  have e : ∀ i : Fin n, Complex.exp (2 * Real.pi * Complex.I * fs i * (t : ℂ)) = tph f0 t * dft (a + n + b) l i := fun i => by
    rw [tph, dft, ← Complex.exp_add, hfs i, ht]
    congr 1
    push_cast at hNr ⊢
    field_simp
  simp only [e]
  rw [match_psd hS, match_psd hS]
  have hN2 : N2 S (fun i => h2 i * (tph f0 t * dft (a + n + b) l i)) = N2 S h2 := by
    simp only [N2, norm_mul, norm_tph, norm_dft, mul_one]
  rw [hN2]
  congr 2
  rw [← sup_fin_equiv (Equiv.addRight (Fin.ofNat (a + n + b) l))
    (fun k : Fin (a + n + b) => ‖∑ i : Fin n, star (h1 i) * h2 i * (wt (S i) : ℂ) * dft (a + n + b) k i‖)]
  congr 1
  funext k
  have e2 : ∀ i : Fin n, dft (a + n + b) ((Equiv.addRight (Fin.ofNat (a + n + b) l) k : Fin (a + n + b)) : ℕ) i
      = dft (a + n + b) k i * dft (a + n + b) l i := fun i => by
    rw [← dft_add_left]
    have : ((Equiv.addRight (Fin.ofNat (a + n + b) l) k : Fin (a + n + b)) : ℕ) = (k + l) % (a + n + b) := by
      simp [Fin.val_add, Fin.ofNat]
    rw [this, dft_nat_mod _ _ _ hN]
  have e3 : ∑ i : Fin n, star (h1 i) * (h2 i * (tph f0 t * dft (a + n + b) l i)) * (wt (S i) : ℂ) * dft (a + n + b) k i
      = tph f0 t * ∑ i : Fin n, star (h1 i) * h2 i * (wt (S i) : ℂ) *
        dft (a + n + b) ((Equiv.addRight (Fin.ofNat (a + n + b) l) k : Fin (a + n + b)) : ℕ) i := by
    rw [Finset.mul_sum]; refine Finset.sum_congr rfl fun i _ => ?_
    rw [e2]; ring
  rw [e3, norm_mul, norm_tph, one_mul]

/-- the same for a shift in the other direction -/
theorem C17_time_shift_neg {a b : ℕ} (fs : Fin n → ℝ) (f0 df : ℝ) (S : Fin n → XR) (h1 h2 : Fin n → ℂ) (l : ℕ)
    (hdf : 0 < df) (hfs : UniformGrid fs f0 df) (hS : IsPSD S) :
    get_match_arr (fun _ : Fin a => 0) (fun _ : Fin b => 0) S h1
        (fun i => h2 i * Complex.exp (-(2 * Real.pi * Complex.I * fs i * ((l / (((a + n + b : ℕ) : ℝ) * df) : ℝ) : ℂ)))) =
      get_match_arr (fun _ : Fin a => 0) (fun _ : Fin b => 0) S h1 h2 := by
  have := C17_time_shift (a := a) (b := b) fs f0 df S h1
    (fun i => h2 i * Complex.exp (-(2 * Real.pi * Complex.I * fs i * ((l / (((a + n + b : ℕ) : ℝ) * df) : ℝ) : ℂ)))) l hdf hfs hS
  rw [← this]
  congr 1
  funext i
  rw [mul_assoc, ← Complex.exp_add, neg_add_cancel, Complex.exp_zero, mul_one]

/-- and for a shift of the first waveform -/
theorem C17_time_shift_left {a b : ℕ} (fs : Fin n → ℝ) (f0 df : ℝ) (S : Fin n → XR) (h1 h2 : Fin n → ℂ) (l : ℕ)
    (hdf : 0 < df) (hfs : UniformGrid fs f0 df) (hS : IsPSD S) :
    get_match_arr (fun _ : Fin a => 0) (fun _ : Fin b => 0) S
        (fun i => h1 i * Complex.exp (2 * Real.pi * Complex.I * fs i * ((l / (((a + n + b : ℕ) : ℝ) * df) : ℝ) : ℂ))) h2 =
      get_match_arr (fun _ : Fin a => 0) (fun _ : Fin b => 0) S h1 h2 := by
  rw [C17_symmetric _ _ h2 hS, C17_time_shift fs f0 df S h2 h1 l hdf hfs hS, C17_symmetric _ _ _ hS]

/-! ### C18 -/

theorem C18_defaults {a b : ℕ} {Θ : Type} (fs : Fin n → ℝ) (pl : Fin a → ℂ) (ph : Fin b → ℂ)
    (Sn : (Fin n → ℝ) → Fin n → XR) (θ1 θ2 : Θ) (amp1 Psi1 amp2 Psi2 : (Fin n → ℝ) → Θ → Fin n → ℝ) (t : ℝ) :
    (get_match fs pl ph Sn θ1 θ2 amp1 Psi1 none (some Psi2) =
      get_match fs pl ph Sn θ1 θ2 amp1 Psi1 (some amp1) (some Psi2)) ∧
    (get_match fs pl ph Sn θ1 θ2 amp1 Psi1 (some amp2) none =
      get_match fs pl ph Sn θ1 θ2 amp1 Psi1 (some amp2) (some Psi1)) ∧
    (get_match fs pl ph Sn θ1 θ2 amp1 Psi1 none none =
      get_match fs pl ph Sn θ1 θ2 amp1 Psi1 (some amp1) (some Psi1)) ∧
    (get_phase_maximized_inner_product t fs Sn θ1 θ2 amp1 Psi1 none (some Psi2) =
      get_phase_maximized_inner_product t fs Sn θ1 θ2 amp1 Psi1 (some amp1) (some Psi2)) ∧
    (get_phase_maximized_inner_product t fs Sn θ1 θ2 amp1 Psi1 (some amp2) none =
      get_phase_maximized_inner_product t fs Sn θ1 θ2 amp1 Psi1 (some amp2) (some Psi1)) ∧
    (get_phase_maximized_inner_product t fs Sn θ1 θ2 amp1 Psi1 none none =
      get_phase_maximized_inner_product t fs Sn θ1 θ2 amp1 Psi1 (some amp1) (some Psi1)) :=
  ⟨rfl, rfl, rfl, rfl, rfl, rfl⟩

/-- the two wrappers evaluate the array functions on `A·exp(iΨ)` for the given models and PSD -/
theorem C18_wrappers {a b : ℕ} {Θ : Type} (fs : Fin n → ℝ) (pl : Fin a → ℂ) (ph : Fin b → ℂ)
    (Sn : (Fin n → ℝ) → Fin n → XR) (θ1 θ2 : Θ) (amp1 Psi1 amp2 Psi2 : (Fin n → ℝ) → Θ → Fin n → ℝ) (t : ℝ) :
    get_match fs pl ph Sn θ1 θ2 amp1 Psi1 (some amp2) (some Psi2) =
      get_match_arr pl ph (Sn fs) (fun i => amp1 fs θ1 i * Complex.exp (Psi1 fs θ1 i * Complex.I))
        (fun i => amp2 fs θ2 i * Complex.exp (Psi2 fs θ2 i * Complex.I)) ∧
    get_phase_maximized_inner_product t fs Sn θ1 θ2 amp1 Psi1 (some amp2) (some Psi2) =
      get_phase_maximized_inner_product_arr t fs (Sn fs)
        (fun i => amp1 fs θ1 i * Complex.exp (Psi1 fs θ1 i * Complex.I))
        (fun i => amp2 fs θ2 i * Complex.exp (Psi2 fs θ2 i * Complex.I)) := by
  have e : ∀ (amp Psi : (Fin n → ℝ) → Θ → Fin n → ℝ) (θ : Θ), strain amp Psi fs θ =
      fun i => amp fs θ i * Complex.exp (Psi fs θ i * Complex.I) := fun amp Psi θ => by
    funext i; simp only [strain, mul_comm]
  constructor
  · simp only [get_match, e]
  · simp only [get_phase_maximized_inner_product, e]

theorem C18_self {a b : ℕ} {Θ : Type} (fs : Fin n → ℝ) (Sn : (Fin n → ℝ) → Fin n → XR) (θ : Θ)
    (amp Psi : (Fin n → ℝ) → Θ → Fin n → ℝ) (hS : IsPSD (Sn fs))
    (hv : ∃ i, amp fs θ i ≠ 0 ∧ ∃ r, Sn fs i = .fin r) :
    get_match fs (fun _ : Fin a => 0) (fun _ : Fin b => 0) Sn θ θ amp Psi none none = .fin 1 ∧
    get_phase_maximized_inner_product 0 fs Sn θ θ amp Psi none none = .fin 1 := by
  have hv' : Visible (Sn fs) (strain amp Psi fs θ) := by
    obtain ⟨i, hi, r, hr⟩ := hv
    exact ⟨i, mul_ne_zero (by exact_mod_cast hi) (Complex.exp_ne_zero _), r, hr⟩
  constructor
  · have := C15_self_match (a := a) (b := b) (Sn fs) (strain amp Psi fs θ) 1 hS hv' one_ne_zero
    simp only [one_mul] at this
    exact this
  · exact C13_self_overlap fs (Sn fs) _ hS hv'

/-! ### C19 -/

/-- a bin with infinite noise never influences overlap or match (no assumption on the other bins) -/
theorem C19_infinite_bins_ignored {a b : ℕ} (t : ℝ) (fs : Fin n → ℝ) (pl : Fin a → ℂ) (ph : Fin b → ℂ)
    (S : Fin n → XR) (h1 h2 h1' h2' : Fin n → ℂ)
    (e1 : ∀ i, S i ≠ .pinf → h1 i = h1' i) (e2 : ∀ i, S i ≠ .pinf → h2 i = h2' i) :
    get_phase_maximized_inner_product_arr t fs S h1 h2 = get_phase_maximized_inner_product_arr t fs S h1' h2' ∧
    get_match_arr pl ph S h1 h2 = get_match_arr pl ph S h1' h2' := by
  have hn : ∀ (h h' : Fin n → ℂ), (∀ i, S i ≠ .pinf → h i = h' i) → noiseNorm S h = noiseNorm S h' := by
    intro h h' e
    simp only [noiseNorm]
    congr 3
    funext i
    by_cases hi : S i = .pinf
    · rw [hi]; simp
    · rw [e i hi]
  have hc : ∀ (g : Fin n → ℂ → ℂ → ℂ) i, cdivX (g i (h1 i) (h2 i)) (S i) = cdivX (g i (h1' i) (h2' i)) (S i) := by
    intro g i
    by_cases hi : S i = .pinf
    · rw [hi]; rfl
    · rw [e1 i hi, e2 i hi]
  constructor
  · simp only [get_phase_maximized_inner_product_arr, hn h1 h1' e1, hn h2 h2' e2]
    congr 3
    funext i
    exact hc (fun i x y => star x * y * Complex.exp (Complex.I * 2 * Real.pi * fs i * t)) i
  · simp only [get_match_arr, hn h1 h1' e1, hn h2 h2' e2]
    have : (fun i => cdivX (star (h1 i) * h2 i) (S i)) = fun i => cdivX (star (h1' i) * h2' i) (S i) := by
      funext i; exact hc (fun _ x y => star x * y) i
    rw [this]

/-- a waveform invisible to the detector gives NaN, not 0 -/
theorem C19_zero_norm_nan {a b : ℕ} (t : ℝ) (fs : Fin n → ℝ) (S : Fin n → XR) (h1 h2 : Fin n → ℂ)
    (hS : IsPSD S) (h : ¬ Visible S h1 ∨ ¬ Visible S h2) :
    get_phase_maximized_inner_product_arr t fs S h1 h2 = .nan ∧
    get_match_arr (fun _ : Fin a => 0) (fun _ : Fin b => 0) S h1 h2 = .nan := by
  have hz : √(N2 S h1) * √(N2 S h2) = 0 := by
    rcases h with h | h
    · rw [← N2_pos_iff hS, not_lt] at h
      rw [le_antisymm h (N2_nonneg hS h1)]; simp
    · rw [← N2_pos_iff hS, not_lt] at h
      rw [le_antisymm h (N2_nonneg hS h2)]; simp
  have hle : ∀ x : ℝ, 0 ≤ x → x ≤ √(N2 S h1) * √(N2 S h2) → XR.fin x / .fin (√(N2 S h1) * √(N2 S h2)) = .nan := by
    intro x h0 h1
    rw [hz] at h1 ⊢
    rw [le_antisymm h1 h0, XR.div_zero_zero]
  constructor
  · rw [inner_psd hS]
    refine hle _ (norm_nonneg _) ?_
    have := cauchy_schwarz (fun i => wt_nonneg hS i) h1 (fun i => h2 i * tph (fs i) t)
    rw [N2_tph] at this
    simpa only [N2, mul_assoc] using this
  · rw [match_psd hS]
    refine hle _ (Real.iSup_nonneg fun _ => norm_nonneg _) ?_
    rcases Nat.eq_zero_or_pos (a + n + b) with h0 | hN
    · have : IsEmpty (Fin (a + n + b)) := by rw [h0]; infer_instance
      rw [Real.iSup_of_isEmpty, hz]
    · exact sup_fin_le _ hN fun k => dft_cauchy hS h1 h2 k

/-- a NaN anywhere in the PSD makes overlap and match NaN -/
theorem C19_nan_psd {a b : ℕ} (t : ℝ) (fs : Fin n → ℝ) (pl : Fin a → ℂ) (ph : Fin b → ℂ)
    (S : Fin n → XR) (h1 h2 : Fin n → ℂ) (i : Fin n) (hi : S i = .nan) :
    get_phase_maximized_inner_product_arr t fs S h1 h2 = .nan ∧ get_match_arr pl ph S h1 h2 = .nan := by
  have hn : ∀ h : Fin n → ℂ, noiseNorm S h = .nan := by
    intro h
    rw [noiseNorm, XR.sum_nan]; rfl
    rw [List.mem_ofFn]
    exact ⟨i, by rw [hi]; simp⟩
  constructor
  · simp only [get_phase_maximized_inner_product_arr, hn, XR.nan_mul, XR.div_nan]
  · simp only [get_match_arr, hn, XR.nan_mul, XR.div_nan]

/-- witness for the zero-norm hypothesis: strain only where the noise is infinite -/
example : ∃ (S : Fin 1 → XR) (h : Fin 1 → ℂ), IsPSD S ∧ h ≠ 0 ∧ ¬ Visible S h :=
  ⟨![.pinf], ![1], fun i => by right; fin_cases i; rfl, fun h => by simpa using congrFun h 0,
    fun ⟨i, _, r, hr⟩ => by fin_cases i; simp at hr⟩

end Ripple

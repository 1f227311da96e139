/-
  C112: accuracy of the overlap and the match in floating-point arithmetic.
-/
import Verif.Proofs.RoundedIntegral
import Verif.Props.Match

namespace Ripple
open Fp Spec

noncomputable section

section
variable {F : Fp.Fmt} (hF : F.Roomy) (lib : Lib F) {δ : ℝ} (hδ : 0 ≤ δ) (hl : lib.Accurate δ) {n : ℕ} {S : Fin n → ℝ}
  (hS : ∀ i, 0 < S i) (hSf : ∀ i, F.IsFloat (S i)) {h1 h2 : Fin n → ℂ} (he : δ + n * F.u ≤ 1 / 1000)
include hF hδ he hS

lemma mk_sizes {N : ℕ} (hn : n ≤ N) {h : Fin n → ℂ} (w : WellScaled F N S h) : Sizes F N n S (normSq S h) (δ + n * F.u) := by
  have hu := u_pos (F := F)
  have h1 : (1 : ℝ) ≤ n := by exact_mod_cast one_le_of_scaled w
  exact w.sizes hF (by nlinarith) (by linarith) he hn hS

include hl hSf

/-- C112: for two waveforms and a noise curve in the range of the format, the overlap in rounded arithmetic is a finite number
    within `200 (δ + n u)` of the exact one; `δ` is the error of the library, `n` the number of samples, `u` the unit roundoff. -/
theorem C112_overlap (w1 : WellScaled F n S h1) (w2 : WellScaled F n S h2) (del_t : ℝ) (fs : Fin n → ℝ)
    (hph : lib.PhaseAccurate δ fs del_t) :
    ∃ exact rounded : ℝ,
      Ripple.get_phase_maximized_inner_product_arr del_t fs (fun i => .fin (S i)) h1 h2 = .fin exact
      ∧ Fp.get_phase_maximized_inner_product_arr F lib del_t fs (fun i => .fin (S i)) (fun i => ofC (h1 i)) (fun i => ofC (h2 i)) = .fin rounded
      ∧ F.IsFloat rounded ∧ |rounded - exact| ≤ 200 * (δ + n * F.u) := by
  have z1 := mk_sizes hF hδ hS he le_rfl w1
  have z2 := mk_sizes hF hδ hS he le_rfl w2
  have hd : δ ≤ δ + n * F.u := by have := u_pos (F := F); have : 0 ≤ n * F.u := by positivity
                                  linarith
  obtain ⟨r, a, b, c⟩ := overlap_near lib (hl.mono hd) hSf del_t fs (fun i => (hph i).trans hd) w1 w2 z1 z2
  refine ⟨_, r, ?_, a, b, c⟩
  have hp := psd_fin hS
  have v1 := (N2_pos_iff hp h1).1 (by rw [N2_fin]; exact z1.Q0)
  have v2 := (N2_pos_iff hp h2).1 (by rw [N2_fin]; exact z2.Q0)
  rw [inner_fin hp del_t fs v1 v2, N2_fin, N2_fin]
  congr 3
  exact Finset.sum_congr rfl fun i _ => by simp [wt, div_eq_mul_inv]

/-- C112: the same for the match, with any zero padding. -/
theorem C112_match (a b : ℕ) (w1 : WellScaled F (a + n + b) S h1) (w2 : WellScaled F (a + n + b) S h2) :
    ∃ exact rounded : ℝ,
      Ripple.get_match_arr (fun _ : Fin a => 0) (fun _ : Fin b => 0) (fun i => .fin (S i)) h1 h2 = .fin exact
      ∧ Fp.get_match_arr F lib a b (fun i => .fin (S i)) (fun i => ofC (h1 i)) (fun i => ofC (h2 i)) = .fin rounded
      ∧ F.IsFloat rounded ∧ |rounded - exact| ≤ 200 * (δ + n * F.u) := by
  have z1 := mk_sizes hF hδ hS he (by omega) w1
  have z2 := mk_sizes hF hδ hS he (by omega) w2
  have hd : δ ≤ δ + n * F.u := by have := u_pos (F := F); have : 0 ≤ n * F.u := by positivity
                                  linarith
  obtain ⟨r, p, q, c⟩ := match_near lib (hl.mono hd) hSf a b w1 w2 z1 z2
  refine ⟨_, r, ?_, p, q, c⟩
  have hp := psd_fin hS
  have v1 := (N2_pos_iff hp h1).1 (by rw [N2_fin]; exact z1.Q0)
  have v2 := (N2_pos_iff hp h2).1 (by rw [N2_fin]; exact z2.Q0)
  rw [match_fin hp v1 v2, N2_fin, N2_fin]
  congr 3
  funext k
  congr 1
  exact Finset.sum_congr rfl fun i _ => by simp [wt, div_eq_mul_inv]

/-- C112: the match of a waveform with itself is one up to `200 (δ + n u)`. -/
theorem C112_self (a b : ℕ) (w1 : WellScaled F (a + n + b) S h1) :
    ∃ rounded : ℝ,
      Fp.get_match_arr F lib a b (fun i => .fin (S i)) (fun i => ofC (h1 i)) (fun i => ofC (h1 i)) = .fin rounded
      ∧ |rounded - 1| ≤ 200 * (δ + n * F.u) := by
  obtain ⟨x, r, hx, hr, -, hd⟩ := C112_match hF lib hδ hl hS hSf he a b w1 w1
  have hp := psd_fin hS
  have v1 := (N2_pos_iff hp h1).1 (by rw [N2_fin]; exact (mk_sizes hF hδ hS he (by omega) w1).Q0)
  have := C15_self_match (a := a) (b := b) _ h1 1 hp v1 one_ne_zero
  simp only [one_mul] at this
  rw [this] at hx
  injection hx with hx
  exact ⟨r, hr, by rw [hx]; exact hd⟩

/-- C112: the match exceeds one by at most `200 (δ + n u)`. -/
theorem C112_le_one (a b : ℕ) (w1 : WellScaled F (a + n + b) S h1) (w2 : WellScaled F (a + n + b) S h2) :
    ∃ rounded : ℝ,
      Fp.get_match_arr F lib a b (fun i => .fin (S i)) (fun i => ofC (h1 i)) (fun i => ofC (h2 i)) = .fin rounded
      ∧ -(200 * (δ + n * F.u)) ≤ rounded ∧ rounded ≤ 1 + 200 * (δ + n * F.u) := by
  obtain ⟨x, r, hx, hr, -, hd⟩ := C112_match hF lib hδ hl hS hSf he a b w1 w2
  have hp := psd_fin hS
  have v1 := (N2_pos_iff hp h1).1 (by rw [N2_fin]; exact (mk_sizes hF hδ hS he (by omega) w1).Q0)
  have v2 := (N2_pos_iff hp h2).1 (by rw [N2_fin]; exact (mk_sizes hF hδ hS he (by omega) w2).Q0)
  obtain ⟨v, hv, v3, v4⟩ := C15_match_in_unit_interval (a := a) (b := b) _ h1 h2 hp v1 v2
  rw [hv] at hx
  injection hx with hx
  rw [← hx] at hd
  have := abs_le.1 hd
  exact ⟨r, hr, by linarith, by linarith⟩

end

/-- In double precision strains of modulus at most 1, noise of at least `2^-200` and a squared signal-to-noise ratio of at least
    `2^-500` are in range, for up to `2^200` samples. -/
lemma scaled64 (f : Bool) {N n : ℕ} (hN : (N : ℝ) + 1 ≤ 2 ^ (200 : ℤ)) (hn : n ≤ N) {S : Fin n → ℝ} {h : Fin n → ℂ}
    (hf : ∀ i, CFloat (binary64 f) (h i)) (h1 : ∀ i, ‖h i‖ ≤ 1) (hS : ∀ i, 2 ^ (-200 : ℤ) ≤ S i)
    (hQ : 2 ^ (-500 : ℤ) ≤ normSq S h) : WellScaled (binary64 f) N S h := by
  have hM : (2 : ℝ) ^ (binary64 f).emax = 2 ^ (1024 : ℤ) := rfl
  have hm : (binary64 f).minNormal = 2 ^ (-1022 : ℤ) := by simp [Fmt.minNormal, binary64]
  have hu : (binary64 f).u = 2 ^ (-53 : ℤ) := by simp [Fmt.u, binary64]
  have hn' : (n : ℝ) ≤ 2 ^ (200 : ℤ) := by
    have : (n : ℝ) ≤ N := by exact_mod_cast hn
    linarith
  have hSp : ∀ i, 0 < S i := fun i => lt_of_lt_of_le (two_zpow_pos _) (hS i)
  have hinv : ∀ i, 1 / S i ≤ 2 ^ (200 : ℤ) := fun i => by
    rw [div_le_iff₀ (hSp i)]
    have := mul_le_mul_of_nonneg_left (hS i) (two_zpow_pos 200).le
    rwa [← zpow_add₀ two_ne_zero, show (200 + -200 : ℤ) = 0 by norm_num, zpow_zero] at this
  have hsum : ∀ g : Fin n → ℝ, (∀ i, g i ≤ 2 ^ (200 : ℤ)) → ∑ i, g i ≤ 2 ^ (400 : ℤ) := by
    intro g hg
    have a1 := Finset.sum_le_sum fun i (_ : i ∈ Finset.univ) => hg i
    rw [Finset.sum_const, Finset.card_univ, Fintype.card_fin, nsmul_eq_mul] at a1
    refine a1.trans ((mul_le_mul_of_nonneg_right hn' (two_zpow_pos _).le).trans (le_of_eq ?_))
    rw [← zpow_add₀ two_ne_zero]; norm_num
  have hsq : ∀ i, ‖h i‖ ^ 2 ≤ 1 := fun i => pow_le_one₀ (norm_nonneg _) (h1 i)
  have hlow : ∀ x : ℝ, x ≤ 2 ^ (400 : ℤ) → (binary64 f).minNormal * x ≤ (binary64 f).u * normSq S h := by
    intro x hx
    have a1 := mul_le_mul_of_nonneg_left hQ (two_zpow_pos (-53)).le
    have a2 := mul_le_mul_of_nonneg_left hx (two_zpow_pos (-1022)).le
    rw [← zpow_add₀ two_ne_zero] at a1 a2
    rw [hm, hu]
    exact a2.trans ((zpow_le (by norm_num)).trans a1)
  have h8 : ∀ x : ℝ, x ≤ 2 ^ (400 : ℤ) → 8 * x < 2 ^ (binary64 f).emax := by
    intro x hx
    have a : (8 : ℝ) = 2 ^ (3 : ℤ) := by norm_num
    rw [hM, a]
    refine lt_of_le_of_lt (mul_le_mul_of_nonneg_left hx (two_zpow_pos 3).le) ?_
    rw [← zpow_add₀ two_ne_zero]
    exact zpow_lt_zpow_right₀ one_lt_two (by norm_num)
  have one : (1 : ℝ) ≤ 2 ^ (400 : ℤ) := by
    have : (2 : ℝ) ^ (0 : ℤ) ≤ 2 ^ (400 : ℤ) := zpow_le (by norm_num)
    simpa using this
  refine ⟨hf, fun i => h8 _ ((hsq i).trans one), h8 _ (hsum _ fun i => ?_), hlow _ (hN.trans (zpow_le (by norm_num))), hlow _ (hsum _ hinv)⟩
  rw [div_eq_mul_one_div]
  refine (mul_le_mul_of_nonneg_right (hsq i) (one_div_pos.2 (hSp i)).le).trans ?_
  rw [one_mul]; exact hinv i

/-- C112 in double precision: strains of modulus at most 1, noise of at least `2^-200` (6e-61), signal-to-noise ratios of at least
    `2^-250`; any padding up to `2^200` samples. -/
theorem C112_double (f : Bool) (lib : Lib (binary64 f)) {δ : ℝ} (hδ : 0 ≤ δ) (hl : lib.Accurate δ) {n : ℕ} {S : Fin n → ℝ}
    (hS : ∀ i, 2 ^ (-200 : ℤ) ≤ S i) (hSf : ∀ i, (binary64 f).IsFloat (S i)) {h1 h2 : Fin n → ℂ}
    (hf : ∀ i, CFloat (binary64 f) (h1 i) ∧ CFloat (binary64 f) (h2 i)) (hh : ∀ i, ‖h1 i‖ ≤ 1 ∧ ‖h2 i‖ ≤ 1)
    (hQ1 : 2 ^ (-500 : ℤ) ≤ ∑ i, ‖h1 i‖ ^ 2 / S i) (hQ2 : 2 ^ (-500 : ℤ) ≤ ∑ i, ‖h2 i‖ ^ 2 / S i)
    (he : δ + n * 2 ^ (-53 : ℤ) ≤ 1 / 1000) (a b : ℕ) (hN : ((a + n + b : ℕ) : ℝ) + 1 ≤ 2 ^ (200 : ℤ)) :
    ∃ exact rounded : ℝ,
      Ripple.get_match_arr (fun _ : Fin a => 0) (fun _ : Fin b => 0) (fun i => .fin (S i)) h1 h2 = .fin exact
      ∧ Fp.get_match_arr (binary64 f) lib a b (fun i => .fin (S i)) (fun i => ofC (h1 i)) (fun i => ofC (h2 i)) = .fin rounded
      ∧ |rounded - exact| ≤ 200 * (δ + n * 2 ^ (-53 : ℤ)) := by
  have hu : (binary64 f).u = 2 ^ (-53 : ℤ) := by simp [Fmt.u, binary64]
  rw [← hu] at he ⊢
  obtain ⟨x, r, h1, h2, -, h3⟩ := C112_match (roomy64 f) lib hδ hl (fun i => lt_of_lt_of_le (two_zpow_pos _) (hS i)) hSf he a b
    (scaled64 f hN (by omega) (fun i => (hf i).1) (fun i => (hh i).1) hS hQ1)
    (scaled64 f hN (by omega) (fun i => (hf i).2) (fun i => (hh i).2) hS hQ2)
  exact ⟨x, r, h1, h2, h3⟩

/-! ### the hypotheses can be met -/

/-- a library with error `2 u`, phases with error `6 u` -/
example (f : Bool) : (exactLib (roomy64 f).toWF).Accurate (2 * (binary64 f).u) := exactLib_accurate (roomy64 f)

example (f : Bool) (fs : Fin 4096 → ℝ) (t : ℝ) : (exactLib (roomy32 f).toWF).PhaseAccurate (6 * (binary32 f).u) fs t :=
  fun i => exactLib_phase (roomy32 f) (fs i) t

/-- noise `2^-150`, strain `2^-75` at 4096 frequencies, in double precision -/
example (f : Bool) : (∀ _ : Fin 4096, (2 : ℝ) ^ (-200 : ℤ) ≤ 2 ^ (-150 : ℤ) ∧ (binary64 f).IsFloat (2 ^ (-150 : ℤ)))
    ∧ CFloat (binary64 f) ((2 ^ (-75 : ℤ) : ℝ) : ℂ) ∧ ‖((2 ^ (-75 : ℤ) : ℝ) : ℂ)‖ ≤ 1
    ∧ (2 : ℝ) ^ (-500 : ℤ) ≤ ∑ _ : Fin 4096, ‖((2 ^ (-75 : ℤ) : ℝ) : ℂ)‖ ^ 2 / 2 ^ (-150 : ℤ)
    ∧ 2 * (binary64 f).u + (4096 : ℕ) * 2 ^ (-53 : ℤ) ≤ 1 / 1000 := by
  have hfl : ∀ k : ℤ, -1022 ≤ k → k < 1024 → (binary64 f).IsFloat (2 ^ k) := fun k h1 h2 => by
    refine ⟨(roomy64 f).toWF.float_pow ?_, ?_⟩
    · rw [Fmt.minNormal]; exact zpow_le (by simp [binary64]; omega)
    · rw [abs_of_pos (two_zpow_pos k)]; exact zpow_lt_zpow_right₀ one_lt_two (by simpa [binary64] using h2)
  have hn : ‖((2 ^ (-75 : ℤ) : ℝ) : ℂ)‖ = 2 ^ (-75 : ℤ) := by
    rw [Complex.norm_real, Real.norm_eq_abs, abs_of_pos (two_zpow_pos _)]
  have hu : (binary64 f).u = 2 ^ (-53 : ℤ) := by simp [Fmt.u, binary64]
  refine ⟨fun _ => ⟨zpow_le (by norm_num), hfl _ (by norm_num) (by norm_num)⟩, ⟨?_, ?_⟩, ?_, ?_, ?_⟩
  · rw [Complex.ofReal_re]; exact hfl _ (by norm_num) (by norm_num)
  · rw [Complex.ofReal_im]; exact ⟨rd_zero, by rw [abs_zero]; exact two_zpow_pos _⟩
  · rw [hn]
    have : (2 : ℝ) ^ (-75 : ℤ) ≤ 2 ^ (0 : ℤ) := zpow_le (by norm_num)
    simpa using this
  · rw [hn, Finset.sum_const, Finset.card_univ, Fintype.card_fin, nsmul_eq_mul]
    have e1 : ((2 : ℝ) ^ (-75 : ℤ)) ^ 2 / 2 ^ (-150 : ℤ) = 1 := by
      rw [← zpow_natCast, ← zpow_mul]; norm_num
    rw [e1]
    have : (2 : ℝ) ^ (-500 : ℤ) ≤ 2 ^ (0 : ℤ) := zpow_le (by norm_num)
    rw [zpow_zero] at this
    exact this.trans (by norm_num)
  · rw [hu]; norm_num

end
end Ripple

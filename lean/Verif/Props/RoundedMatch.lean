/-
  C111: the overlap and the match in single precision.
-/
import Verif.Proofs.RoundedMatch
import Verif.Props.RoundedNoise

namespace Ripple
open Fp

noncomputable section

/-- C111: if the noise is zero at one sample, the overlap and the match are nan in every format, for all waveforms, whatever the
    other values of the noise. -/
theorem C111_zero_noise {F : Fp.Fmt} (lib : Lib F) {n : ℕ} (S : Fin n → XR) (h1 h2 : Fin n → XR × XR) (i : Fin n)
    (hi : S i = .fin 0) (del_t : ℝ) (fs : Fin n → ℝ) (a b : ℕ) :
    Fp.get_phase_maximized_inner_product_arr F lib del_t fs S h1 h2 = .nan ∧ Fp.get_match_arr F lib a b S h1 h2 = .nan :=
  ⟨overlap_zero_psd lib del_t fs h1 h2 hi, match_zero_psd lib a b h1 h2 hi⟩

/-- C111: in single precision five of the shipped curves are zero at every frequency between 30.3 and 1000 Hz. With one such
    frequency in the grid the overlap and the match are nan for all waveforms. -/
theorem C111_shipped (f : Bool) (lib : Lib (binary32 f)) (eps : ℝ) (he : 0 ≤ eps) {n : ℕ} (fs : Fin n → ℝ)
    (h1 h2 : Fin n → XR × XR) (i : Fin n) (hf : (binary32 f).IsFloat (fs i)) (hlow : 30.3 ≤ fs i) (hhigh : fs i ≤ 1000)
    (del_t : ℝ) (a b : ℕ) (Sn : ℝ → XR)
    (hS : Sn ∈ [(Fp.Sn_aLIGO (binary32 f) eps).1, (Fp.Sn_ce (binary32 f) eps).1, (Fp.Sn_et (binary32 f) eps).1,
      (Fp.Sn_aLIGOZeroDetHighPower (binary32 f) eps).1, (Fp.Sn_O2 (binary32 f) eps).1]) :
    Fp.get_phase_maximized_inner_product_arr (binary32 f) lib del_t fs (fun j => Sn (fs j)) h1 h2 = .nan
      ∧ Fp.get_match_arr (binary32 f) lib a b (fun j => Sn (fs j)) h1 h2 = .nan := by
  norm_num at hlow
  have hz : Sn (fs i) = .fin 0 := by
    simp only [List.mem_cons, List.not_mem_nil, or_false] at hS
    rcases hS with h | h | h | h | h <;> subst h
    · exact C110_aLIGO f eps he _ hf (by norm_num; linarith) (by linarith)
    · exact C110_ce f eps he _ hf (by norm_num; linarith) (by linarith)
    · exact C110_et f eps he _ hf (by norm_num; linarith) (by linarith)
    · exact C110_aLIGOZeroDetHighPower f eps he _ hf (by norm_num; linarith) (by norm_num; linarith)
    · exact C110_O2 f eps he _ hf (by norm_num; linarith) (by linarith)
  exact C111_zero_noise lib _ h1 h2 i hz del_t fs a b

/-- samples of a strain in a format, with parts of modulus at most `t` -/
def SmallStrain (F : Fp.Fmt) {n : ℕ} (h : Fin n → ℝ × ℝ) (t : ℝ) : Prop :=
  ∀ i, F.IsFloat (h i).1 ∧ F.IsFloat (h i).2 ∧ |(h i).1| ≤ t ∧ |(h i).2| ≤ t

lemma SmallStrain.faint {F : Fp.Fmt} {n : ℕ} {h : Fin n → ℝ × ℝ} {t : ℝ} (hh : SmallStrain F h t) (ht : 4 * t < 2 ^ F.emax)
    (hg : ∀ x, |x| ≤ 4 * t ^ 2 → F.rd x = 0) : Faint F h t :=
  ⟨fun i => ⟨(hh i).1.1, (hh i).2.2.1⟩, fun i => ⟨(hh i).2.1.1, (hh i).2.2.2⟩, ht, hg⟩

lemma gone32 (f : Bool) (x : ℝ) (h : |x| ≤ 4 * (2 ^ (-76 : ℤ)) ^ 2) : (binary32 f).rd x = 0 := by
  refine rd_tiny (wf32 f).p1 (h.trans ?_)
  show _ ≤ (2 : ℝ) ^ (-149 - 1 : ℤ)
  norm_num

/-- C111: in single precision, strains of modulus up to `2^-76` (1.3e-23) have squares that round to zero. If one of the two
    waveforms is that small at all frequencies, overlap and match are not finite, and if both are, they are nan, for every
    noise curve and every order of summation. -/
theorem C111_underflow (f : Bool) (lib : Lib (binary32 f)) {n : ℕ} (S : Fin n → XR) (h1 h2 : Fin n → ℝ × ℝ)
    (g : Fin n → XR × XR) (hh1 : SmallStrain (binary32 f) h1 (2 ^ (-76 : ℤ)))
    (hh2 : SmallStrain (binary32 f) h2 (2 ^ (-76 : ℤ))) (del_t : ℝ) (fs : Fin n → ℝ) (a b : ℕ) :
    (¬ (Fp.get_phase_maximized_inner_product_arr (binary32 f) lib del_t fs S (toC h1) g).isFin
      ∧ ¬ (Fp.get_phase_maximized_inner_product_arr (binary32 f) lib del_t fs S g (toC h1)).isFin
      ∧ ¬ (Fp.get_match_arr (binary32 f) lib a b S (toC h1) g).isFin
      ∧ ¬ (Fp.get_match_arr (binary32 f) lib a b S g (toC h1)).isFin)
    ∧ Fp.get_phase_maximized_inner_product_arr (binary32 f) lib del_t fs S (toC h1) (toC h2) = .nan
      ∧ Fp.get_match_arr (binary32 f) lib a b S (toC h1) (toC h2) = .nan := by
  have ht : 4 * (2 : ℝ) ^ (-76 : ℤ) < 2 ^ (binary32 f).emax := by
    show _ < (2 : ℝ) ^ (128 : ℤ); norm_num
  have k1 := hh1.faint ht (gone32 f)
  have k2 := hh2.faint ht (gone32 f)
  have r1 := overlap_faint lib del_t fs S k1 g
  have r2 := match_faint lib a b S k1 g
  exact ⟨⟨r1.1, r1.2, r2.1, r2.2⟩, overlap_faint2 lib del_t fs S k1 k2, match_faint2 lib a b S k1 k2⟩

/-- C111: where subnormal results are flushed to zero the same holds for strains up to `2^-65` (2.7e-20). -/
theorem C111_flush (lib : Lib (binary32 true)) {n : ℕ} (S : Fin n → XR) (h1 h2 : Fin n → ℝ × ℝ)
    (g : Fin n → XR × XR) (hh1 : SmallStrain (binary32 true) h1 (2 ^ (-65 : ℤ)))
    (hh2 : SmallStrain (binary32 true) h2 (2 ^ (-65 : ℤ))) (del_t : ℝ) (fs : Fin n → ℝ) (a b : ℕ) :
    (¬ (Fp.get_phase_maximized_inner_product_arr (binary32 true) lib del_t fs S (toC h1) g).isFin
      ∧ ¬ (Fp.get_phase_maximized_inner_product_arr (binary32 true) lib del_t fs S g (toC h1)).isFin
      ∧ ¬ (Fp.get_match_arr (binary32 true) lib a b S (toC h1) g).isFin
      ∧ ¬ (Fp.get_match_arr (binary32 true) lib a b S g (toC h1)).isFin)
    ∧ Fp.get_phase_maximized_inner_product_arr (binary32 true) lib del_t fs S (toC h1) (toC h2) = .nan
      ∧ Fp.get_match_arr (binary32 true) lib a b S (toC h1) (toC h2) = .nan := by
  have ht : 4 * (2 : ℝ) ^ (-65 : ℤ) < 2 ^ (binary32 true).emax := by
    show _ < (2 : ℝ) ^ (128 : ℤ); norm_num
  have hg : ∀ x : ℝ, |x| ≤ 4 * (2 ^ (-65 : ℤ)) ^ 2 → (binary32 true).rd x = 0 := by
    intro x hx
    rcases eq_or_ne x 0 with rfl | h0
    · exact rd_zero
    have e : (binary32 true).minNormal = 2 ^ (-126 : ℤ) := by simp [Fmt.minNormal, binary32]
    have hr := rnd_err (F := binary32 true) x
    have hl : (2 : ℝ) ^ (binary32 true).lsb x ≤ 2 ^ (-127 : ℤ) := by
      refine zpow_le ?_
      refine max_le ?_ (by simp [binary32])
      have h1 := (log_le_abs h0).trans hx
      have h2 : (2 : ℝ) ^ Int.log 2 |x| ≤ 2 ^ (-128 : ℤ) := h1.trans (by norm_num)
      have := (zpow_le_zpow_iff_right₀ (one_lt_two (α := ℝ))).1 h2
      simp [binary32]; omega
    unfold Fmt.rd
    refine if_pos ⟨rfl, ?_⟩
    rw [e]
    have h3 := abs_sub_abs_le_abs_sub ((binary32 true).rnd x) x
    norm_num at hx hl ⊢
    linarith
  have k1 := hh1.faint ht hg
  have k2 := hh2.faint ht hg
  have r1 := overlap_faint lib del_t fs S k1 g
  have r2 := match_faint lib a b S k1 g
  exact ⟨⟨r1.1, r1.2, r2.1, r2.2⟩, overlap_faint2 lib del_t fs S k1 k2, match_faint2 lib a b S k1 k2⟩

/-! ### the hypotheses can be met -/

/-- a library exists -/
example (f : Bool) : Nonempty (Lib (binary32 f)) := ⟨exactLib (wf32 f)⟩

/-- a strain of modulus `2^-76` at every frequency; a grid through 100 Hz -/
example (f : Bool) : SmallStrain (binary32 f) (fun _ : Fin 100 => (2 ^ (-76 : ℤ), 0)) (2 ^ (-76 : ℤ))
    ∧ (binary32 f).IsFloat 100 := by
  have hp : (0 : ℝ) < 2 ^ (-76 : ℤ) := two_zpow_pos _
  have e : (2 : ℝ) ^ (binary32 f).emax = 2 ^ (128 : ℤ) := rfl
  refine ⟨fun i => ⟨⟨(wf32 f).float_pow ?_, ?_⟩, ⟨rd_zero, ?_⟩, ?_, ?_⟩, ⟨?_, ?_⟩⟩
  · rw [Fmt.minNormal]; exact zpow_le (by simp [binary32])
  · rw [abs_of_pos hp, e]; exact zpow_lt_zpow_right₀ one_lt_two (by norm_num)
  · rw [abs_zero]; exact two_zpow_pos _
  · rw [abs_of_pos hp]
  · rw [abs_zero]; exact hp.le
  · exact rd_exact 25 (k := 2) (by norm_num) (by simp [binary32]) (by simp [binary32]) (by have := (wf32 f).min_le; linarith)
  · rw [e]; norm_num

end
end Ripple

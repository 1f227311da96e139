/-
  C107: what `jax.grad` returns.
-/
import Verif.Proofs.AutodiffPeak

namespace Ripple
open AD Classical
open scoped ContDiff

/-- reverse-mode differentiation of any traced program returns the derivative, at every input where all the steps of the
    program are differentiable, including those of branches that are not selected -/
theorem C107_reverse_mode (p : Prog) (ρ : ℕ → ℝ) (h : Regular ρ p) (o i : ℕ) :
    run (fun j => .fin (ρ j)) p o = .fin (runR ρ p o) ∧
    ∃ g : ℝ, grad p (fun j => .fin (ρ j)) o i = .fin g ∧
      HasDerivAt (fun t => runR (Function.update ρ i t) p o) g (ρ i) :=
  ⟨by rw [run_fin p h], grad_correct h o i⟩

example : Regular (fun i => if i = 0 then 30 else 0.2) massProg := mass_regular (by norm_num) (by norm_num) (by norm_num)

/-! ### The component masses -/

lemma mass_args (v : Fin 2 → ℝ) : runR (argsR v) massProg 14 = (Mc_eta_to_ms (v 0) (v 1)).1 ∧
    runR (argsR v) massProg 13 = (Mc_eta_to_ms (v 0) (v 1)).2 := mass_runR _

/-- the gradients of the component masses are right for unequal masses -/
theorem C107_masses (v : Fin 2 → ℝ) (h0 : 0 < v 0) (h1 : 0 < v 1) (h1' : v 1 < 1 / 4) (i : Fin 2) :
    (run (args v) massProg 14, run (args v) massProg 13) =
      (.fin (Mc_eta_to_ms (v 0) (v 1)).1, .fin (Mc_eta_to_ms (v 0) (v 1)).2) ∧
    (∃ g : ℝ, grad massProg (args v) 14 i = .fin g ∧
      HasDerivAt (fun t => (Mc_eta_to_ms (Function.update v i t 0) (Function.update v i t 1)).1) g (v i)) ∧
    (∃ g : ℝ, grad massProg (args v) 13 i = .fin g ∧
      HasDerivAt (fun t => (Mc_eta_to_ms (Function.update v i t 0) (Function.update v i t 1)).2) g (v i)) := by
  have hr : Regular (argsR v) massProg := mass_regular h0 h1 h1'
  rw [args_eq]
  refine ⟨?_, ?_, ?_⟩
  · rw [run_fin _ hr, (mass_args v).1.symm, (mass_args v).2.symm]
  · obtain ⟨g, a, b⟩ := grad_correct hr 14 i
    refine ⟨g, a, ?_⟩
    simp only [argsR_update, (mass_args _).1, argsR_self] at b
    exact b
  · obtain ⟨g, a, b⟩ := grad_correct hr 13 i
    refine ⟨g, a, ?_⟩
    simp only [argsR_update, (mass_args _).2, argsR_self] at b
    exact b

/-- at equal masses the gradient in the chirp mass and in the mass ratio is nan, for every program that computes something
    from the component masses: all the waveforms begin with this conversion -/
theorem C107_equal_mass_nan (Mc : ℝ) (hMc : 0 < Mc) (p : Prog) (hp : ∀ i, 2 ≤ i → i ≤ 12 → ignores p i = true) (o : ℕ)
    (ho : 12 < o) (hl : Live (back (run (args ![Mc, 1 / 4]) massProg) p (unit o) 14) ∨
      Live (back (run (args ![Mc, 1 / 4]) massProg) p (unit o) 13)) :
    grad (massProg ++ p) (args ![Mc, 1 / 4]) o 0 = .nan ∧ grad (massProg ++ p) (args ![Mc, 1 / 4]) o 1 = .nan := by
  have := mass_nan (env := args ![Mc, 1 / 4]) hMc rfl rfl hl fun i h2 h12 => by
    rw [back_ignores i p _ _ (hp i h2 h12)]
    unfold unit
    rw [if_neg (by omega)]
  unfold grad
  rw [back_append, this.1, this.2]
  exact ⟨rfl, rfl⟩

/-- whereas every differentiable function of the component masses is differentiable in the chirp mass there -/
theorem C107_equal_mass_smooth (Mc : ℝ) (hMc : 0 < Mc) (F : ℝ × ℝ → ℝ)
    (hF : DifferentiableAt ℝ F (Mc_eta_to_ms Mc (1 / 4))) :
    DifferentiableAt ℝ (fun t => F (Mc_eta_to_ms t (1 / 4))) Mc := by
  have e : ∀ t, 0 < t → Mc_eta_to_ms t (1 / 4) = (t / (1 / 4) ^ ((3 : ℝ) / 5) / 2, t / (1 / 4) ^ ((3 : ℝ) / 5) / 2) := by
    intro t _
    unfold Mc_eta_to_ms
    have : ∀ M : ℝ, M ^ 2 - 4 * M ^ 2 * (1 / 4) = 0 := fun M => by ring
    simp only [this, Real.sqrt_zero, Prod.mk.injEq]
    constructor <;> ring
  have g : DifferentiableAt ℝ (fun t : ℝ => (t / (1 / 4 : ℝ) ^ ((3 : ℝ) / 5) / 2, t / (1 / 4 : ℝ) ^ ((3 : ℝ) / 5) / 2)) Mc := by
    fun_prop
  have hF' : DifferentiableAt ℝ F ((fun t : ℝ => (t / (1 / 4 : ℝ) ^ ((3 : ℝ) / 5) / 2, t / (1 / 4 : ℝ) ^ ((3 : ℝ) / 5) / 2)) Mc) := by
    show DifferentiableAt ℝ F (Mc / _ / 2, Mc / _ / 2)
    rw [← e Mc hMc]; exact hF
  refine (hF'.comp Mc g).congr_of_eventuallyEq ?_
  filter_upwards [eventually_gt_nhds hMc] with t ht
  simp only [Function.comp_def, e t ht]

/-- the smallest instance: the total mass of two equal masses -/
theorem C107_total_mass (Mc : ℝ) (hMc : 0 < Mc) :
    grad (massProg ++ [(15, .add 14 13)]) (args ![Mc, 1 / 4]) 15 0 = .nan ∧
    HasDerivAt (fun t => (Mc_eta_to_ms t (1 / 4)).1 + (Mc_eta_to_ms t (1 / 4)).2) (4 ^ ((3 : ℝ) / 5)) Mc := by
  constructor
  · refine (C107_equal_mass_nan Mc hMc [(15, .add 14 13)] ?_ 15 (by norm_num) (Or.inl ?_)).1
    · intro i h2 h12
      interval_cases i <;> decide +kernel
    · refine back_live (fun i => i == 15) _ _ _ (fun i hi => ?_) 14 (by decide +kernel)
      rw [beq_iff_eq] at hi
      simp [hi, unit, Live]
  · have e : ∀ t : ℝ, (Mc_eta_to_ms t (1 / 4)).1 + (Mc_eta_to_ms t (1 / 4)).2 = t * 4 ^ ((3 : ℝ) / 5) := by
      intro t
      unfold Mc_eta_to_ms
      have : (4 : ℝ) ^ ((3 : ℝ) / 5) = ((1 / 4 : ℝ) ^ ((3 : ℝ) / 5))⁻¹ := by
        rw [← Real.inv_rpow (by norm_num)]; norm_num
      rw [this]
      ring
    simp only [e]
    simpa using (hasDerivAt_id' Mc).mul_const (4 ^ ((3 : ℝ) / 5))

/-! ### The ringdown amplitude of IMRPhenomXAS -/

/-- the ringdown amplitude as a function of frequency, masses and spins -/
noncomputable def ringdownAmp (v : Fin 5 → ℝ) : ℝ :=
  (XAS.get_mergerringdown_Amp (v 0) ⟨v 1, v 2, v 3, v 4⟩ XAS.PhenomX_amp_coeff_table).1

/-- the peak frequency as a function of frequency, masses and spins -/
noncomputable def ringdownPeak (v : Fin 5 → ℝ) : ℝ :=
  (XAS.get_mergerringdown_Amp (v 0) ⟨v 1, v 2, v 3, v 4⟩ XAS.PhenomX_amp_coeff_table).2

lemma good_of {v : Fin 5 → ℝ} (h : (Theta.mk (v 1) (v 2) (v 3) (v 4)).Physical) (hne : v 1 ≠ v 2) : Good (argsR v) := ⟨h, hne⟩

/-- for mass ratios up to 5, and up to 20 with spins up to 0.7, the gradients in frequency, masses and spins are right -/
theorem C107_ringdown (v : Fin 5 → ℝ) (h : (Theta.mk (v 1) (v 2) (v 3) (v 4)).Physical) (hne : v 1 ≠ v 2)
    (hr : (v 1 ≤ 5 * v 2 ∧ v 2 ≤ 5 * v 1) ∨ (v 1 ≤ 20 * v 2 ∧ v 2 ≤ 20 * v 1 ∧ v 3 ≤ 0.7 ∧ v 4 ≤ 0.7)) (i : Fin 5) :
    (run (args v) ringdownProg 63, run (args v) ringdownProg 26) = (.fin (ringdownAmp v), .fin (ringdownPeak v)) ∧
    (∃ g : ℝ, grad ringdownProg (args v) 63 i = .fin g ∧
      HasDerivAt (fun t => ringdownAmp (Function.update v i t)) g (v i)) ∧
    (∃ g : ℝ, grad ringdownProg (args v) 26 i = .fin g ∧
      HasDerivAt (fun t => ringdownPeak (Function.update v i t)) g (v i)) := by
  have h1 : 0 < v 1 := h.m1_pos
  have h2 : 0 < v 2 := h.m2_pos
  have g := gt_pos
  have he : XAS.etaOf (Theta.mk (v 1) (v 2) (v 3) (v 4)) = v 1 * v 2 / (v 1 + v 2) ^ 2 := by
    unfold XAS.etaOf
    field_simp
  have hg : vG2 (argsR v) < 1 := by
    refine XAS.gamma2_lt h ?_
    rcases hr with ⟨a, b⟩ | ⟨a, b, c, d⟩
    · left
      show _ ≤ XAS.etaOf (Theta.mk (v 1) (v 2) (v 3) (v 4))
      rw [he, le_div_iff₀ (by positivity)]
      nlinarith [mul_nonneg (sub_nonneg.2 a) (sub_nonneg.2 b)]
    · right
      refine ⟨?_, c, d⟩
      show _ ≤ XAS.etaOf (Theta.mk (v 1) (v 2) (v 3) (v 4))
      rw [he, le_div_iff₀ (by positivity)]
      norm_num
      nlinarith [mul_nonneg (sub_nonneg.2 a) (sub_nonneg.2 b), mul_pos h1 h2]
  have reg := ringdown_regular (good_of h hne) hg
  have A : ∀ w : Fin 5 → ℝ, runR (argsR w) ringdownProg 63 = ringdownAmp w := fun w => ringdown_runR _
  have B : ∀ w : Fin 5 → ℝ, runR (argsR w) ringdownProg 26 = ringdownPeak w := fun w => peak_runR _
  rw [args_eq]
  refine ⟨?_, ?_, ?_⟩
  · rw [run_fin _ reg, ← A, ← B]
  · obtain ⟨g, a, b⟩ := grad_correct reg 63 i
    refine ⟨g, a, ?_⟩
    simp only [argsR_update, A, argsR_self] at b
    exact b
  · obtain ⟨g, a, b⟩ := grad_correct reg 26 i
    refine ⟨g, a, ?_⟩
    simp only [argsR_update, B, argsR_self] at b
    exact b

example : ∃ v : Fin 5 → ℝ, (Theta.mk (v 1) (v 2) (v 3) (v 4)).Physical ∧ v 1 ≠ v 2 ∧ v 1 ≤ 5 * v 2 ∧ v 2 ≤ 5 * v 1 :=
  ⟨![0.02, 40, 20, 0.9, -0.9], by
    show (Theta.mk 40 20 0.9 (-0.9)).Physical ∧ (40 : ℝ) ≠ 20 ∧ (40 : ℝ) ≤ 5 * 20 ∧ (20 : ℝ) ≤ 5 * 40
    exact ⟨⟨by norm_num, by norm_num, by norm_num [abs_le], by norm_num [abs_le]⟩, by norm_num, by norm_num, by norm_num⟩⟩

/-- for mass ratios from 10 with a primary spin from 0.95 the gradients of the amplitude and of its peak in both masses and
    both spins are nan, and so is the gradient of everything that is computed from the amplitude or the peak -/
theorem C107_ringdown_nan (v : Fin 5 → ℝ) (h : (Theta.mk (v 1) (v 2) (v 3) (v 4)).Physical) (hq : 10 * v 2 ≤ v 1)
    (hc : 0.95 ≤ v 3) (i : Fin 5) (hi : i ≠ 0) (ct : Cot) (hl : ct 63 ≠ none ∨ ct 26 ≠ none) :
    back (args v) ringdownProg ct i = some .nan ∧ grad ringdownProg (args v) 63 i = .nan ∧
      grad ringdownProg (args v) 26 i = .nan := by
  have hne : v 1 ≠ v 2 := by have : 0 < v 2 := h.m2_pos; intro e; linarith
  have hg : 1 < vG2 (argsR v) := XAS.gamma2_gt h hq hc
  have k := fun {ct : Cot} => ringdown_nan (ct := ct) (good_of h hne) hg
  have i1 : 1 ≤ (i : ℕ) := Nat.one_le_iff_ne_zero.2 fun e => hi (Fin.ext e)
  have i4 : (i : ℕ) ≤ 4 := by omega
  rw [args_eq]
  refine ⟨k hl i i1 i4, ?_, ?_⟩
  · unfold grad
    rw [k (Or.inl (by simp [Live, unit])) i i1 i4]; rfl
  · unfold grad
    rw [k (Or.inr (by simp [Live, unit])) i i1 i4]; rfl

/-- whereas the values are right there, the amplitude and its peak are smooth in frequency, masses and spins, and the
    derivative in the frequency, which the waveform itself uses, is right -/
theorem C107_ringdown_smooth (v : Fin 5 → ℝ) (h : (Theta.mk (v 1) (v 2) (v 3) (v 4)).Physical) (hq : 10 * v 2 ≤ v 1)
    (hc : 0.95 ≤ v 3) :
    (run (args v) ringdownProg 63, run (args v) ringdownProg 26) = (.fin (ringdownAmp v), .fin (ringdownPeak v)) ∧
    ContDiffAt ℝ ∞ ringdownAmp v ∧ ContDiffAt ℝ ∞ ringdownPeak v ∧
    grad ringdownProg (args v) 63 0 = .fin (deriv (fun f => (XAS.get_mergerringdown_Amp f ⟨v 1, v 2, v 3, v 4⟩
      XAS.PhenomX_amp_coeff_table).1) (v 0)) := by
  have hne : v 1 ≠ v 2 := by have : 0 < v 2 := h.m2_pos; intro e; linarith
  have hg : 1 < vG2 (argsR v) := XAS.gamma2_gt h hq hc
  have G := good_of h hne
  have F : XAS.SmoothFam (fun w : Fin 5 → ℝ => Theta.mk (w 1) (w 2) (w 3) (w 4)) v :=
    ⟨by fun_prop, by fun_prop, by fun_prop, by fun_prop, h, hne⟩
  have hg' : (XAS.ringdown_Amp_fits (Theta.mk (v 1) (v 2) (v 3) (v 4)) XAS.PhenomX_amp_coeff_table).1 ≠ 1 :=
    (XAS.gamma2_gt h hq hc).ne'
  refine ⟨?_, F.rdA hg' (x := fun w => w 0) (by fun_prop), F.F4 hg', ?_⟩
  · rw [args_eq, ringdown_run G hg 63 (Or.inl rfl), ringdown_run G hg 26 (Or.inr rfl), ringdown_runR, peak_runR]
    rfl
  · obtain ⟨g, a, b⟩ := ringdown_freq G hg
    rw [args_eq, a]
    have e : ∀ t, runR (Function.update (argsR v) 0 t) ringdownProg 63 =
        (XAS.get_mergerringdown_Amp t ⟨v 1, v 2, v 3, v 4⟩ XAS.PhenomX_amp_coeff_table).1 := fun t => ringdown_runR _
    rw [funext e, show argsR v 0 = v 0 from rfl] at b
    rw [b.deriv]

example : ∃ v : Fin 5 → ℝ, (Theta.mk (v 1) (v 2) (v 3) (v 4)).Physical ∧ 10 * v 2 ≤ v 1 ∧ 0.95 ≤ v 3 :=
  ⟨![0.1, 50, 5, 0.95, 0], by
    show (Theta.mk 50 5 0.95 0).Physical ∧ (10 : ℝ) * 5 ≤ 50 ∧ (0.95 : ℝ) ≤ 0.95
    exact ⟨⟨by norm_num, by norm_num, by norm_num [abs_le], by norm_num [abs_le]⟩, by norm_num, by norm_num⟩⟩

end Ripple

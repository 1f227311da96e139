/-
  Reverse-mode differentiation of the ringdown amplitude of IMRPhenomXAS.
-/
import Verif.Proofs.AutodiffMass
import Verif.Proofs.XASGradAmp
import Verif.Proofs.XASGamma

namespace Ripple
namespace AD
open Classical

noncomputable section

def pA : Prog :=
  [(5, .prim ![1, 2, 3, 4] fun x => (XAS.get_cutoff_fMs (x 0) (x 1) (x 2) (x 3)).fRD),
   (6, .prim ![1, 2, 3, 4] fun x => (XAS.get_cutoff_fMs (x 0) (x 1) (x 2) (x 3)).fdamp),
   (7, .prim ![1, 2, 3, 4] fun x => (XAS.ringdown_Amp_fits (thetaOf x) XAS.PhenomX_amp_coeff_table).1),
   (8, .prim ![1, 2, 3, 4] fun x => (XAS.ringdown_Amp_fits (thetaOf x) XAS.PhenomX_amp_coeff_table).2.1),
   (10, .mul 7 7), (11, .const 1), (12, .sub 11 10)]
def pS : Prog := [(13, .sqrt 12)]
def pB : Prog :=
  [(14, .sub 13 11), (15, .mul 6 8), (16, .mul 15 14), (17, .div 16 7), (18, .add 5 17), (19, .abs 18)]
def pC : Prog :=
  [(20, .const (-1)), (21, .mul 6 20), (22, .mul 21 8), (23, .div 22 7), (24, .add 5 23), (25, .abs 24),
   (26, .whereLe 7 1 19 25)]
def pD : Prog :=
  [(9, .prim ![1, 2, 3, 4] fun x => (XAS.ringdown_Amp_fits (thetaOf x) XAS.PhenomX_amp_coeff_table).2.2),
   (27, .mul 6 8), (28, .div 9 27), (29, .mul 26 26), (30, .const 2), (31, .mul 30 26), (32, .mul 31 5), (33, .sub 29 32),
   (34, .mul 5 5), (35, .add 33 34), (36, .mul 6 6), (37, .mul 36 8), (38, .mul 37 8), (39, .add 35 38), (40, .mul 28 39),
   (41, .sub 26 5), (42, .mul 41 7), (43, .mul 6 8), (44, .div 42 43), (45, .exp 44), (46, .mul 40 45),
   (47, .mul 6 8), (48, .div 7 47), (49, .mul 8 6), (50, .mul 8 6), (51, .mul 49 50), (52, .mul 6 46), (53, .mul 52 8)]

lemma peak_split : peakProg = pA ++ (pS ++ (pB ++ (pC ++ pD))) := rfl

lemma runR_append (p q : Prog) : ∀ ρ : ℕ → ℝ, runR ρ (p ++ q) = runR (runR ρ p) q := by
  induction p with
  | nil => intro ρ; rfl
  | cons x p ih => intro ρ; simp only [List.cons_append, runR]; rw [ih]

lemma regular_append (p q : Prog) : ∀ ρ : ℕ → ℝ, Regular ρ (p ++ q) ↔ Regular ρ p ∧ Regular (runR ρ p) q := by
  induction p with
  | nil => intro ρ; simp [Regular, runR]
  | cons x p ih => intro ρ; simp only [List.cons_append, runR, Regular]; rw [ih]; exact and_assoc.symm

/-- the binary in the variables 1 to 4 -/
def bin (ρ : ℕ → ℝ) : Theta := ⟨ρ 1, ρ 2, ρ 3, ρ 4⟩

lemma vec4 (ρ : ℕ → ℝ) : (fun j => ρ ((![1, 2, 3, 4] : Fin 4 → ℕ) j)) = ![ρ 1, ρ 2, ρ 3, ρ 4] := by
  ext j; fin_cases j <;> rfl

lemma ringdown_runR (ρ : ℕ → ℝ) : runR ρ ringdownProg 63 =
    (XAS.get_mergerringdown_Amp (ρ 0) (bin ρ) XAS.PhenomX_amp_coeff_table).1 := by
  unfold XAS.get_mergerringdown_Amp XAS.ampRDMin
  simp [ringdownProg, peakProg, lorentzProg, runR, Op.evalR, bin, thetaOf]

lemma peak_runR (ρ : ℕ → ℝ) : runR ρ ringdownProg 26 =
    (XAS.get_mergerringdown_Amp (ρ 0) (bin ρ) XAS.PhenomX_amp_coeff_table).2 := by
  unfold XAS.get_mergerringdown_Amp XAS.ampRDMin
  simp [ringdownProg, peakProg, lorentzProg, runR, Op.evalR, bin, thetaOf]

/-! ### Regularity -/

/-- the four numbers as a smooth family of binaries -/
lemma fam {ρ : ℕ → ℝ} (h : (bin ρ).Physical) (hne : ρ 1 ≠ ρ 2) :
    XAS.SmoothFam thetaOf (fun j => ρ ((![1, 2, 3, 4] : Fin 4 → ℕ) j)) := by
  refine ⟨?_, ?_, ?_, ?_, h, hne⟩
  · show ContDiffAt ℝ _ (fun x : Fin 4 → ℝ => x 0) _; fun_prop
  · show ContDiffAt ℝ _ (fun x : Fin 4 → ℝ => x 1) _; fun_prop
  · show ContDiffAt ℝ _ (fun x : Fin 4 → ℝ => x 2) _; fun_prop
  · show ContDiffAt ℝ _ (fun x : Fin 4 → ℝ => x 3) _; fun_prop

/-- what the regularity of the program rests on -/
structure Good (ρ : ℕ → ℝ) : Prop where
  phys : (bin ρ).Physical
  ne : ρ 1 ≠ ρ 2

def vRD (ρ : ℕ → ℝ) : ℝ := (XAS.get_cutoff_fMs (ρ 1) (ρ 2) (ρ 3) (ρ 4)).fRD
def vD (ρ : ℕ → ℝ) : ℝ := (XAS.get_cutoff_fMs (ρ 1) (ρ 2) (ρ 3) (ρ 4)).fdamp
def vG2 (ρ : ℕ → ℝ) : ℝ := (XAS.ringdown_Amp_fits (bin ρ) XAS.PhenomX_amp_coeff_table).1
def vG3 (ρ : ℕ → ℝ) : ℝ := (XAS.ringdown_Amp_fits (bin ρ) XAS.PhenomX_amp_coeff_table).2.1

lemma Good.bounds {ρ : ℕ → ℝ} (h : Good ρ) : 0.045 < vRD ρ ∧ 0 < vD ρ ∧ vD ρ < 0.0145 / 0.88 ∧ 0.6 < vG2 ρ ∧ 1.2 < vG3 ρ ∧
    vG3 ρ < 1.4 := by
  obtain ⟨a, -⟩ := XAS.fRD_range h.phys
  obtain ⟨b, c⟩ := XAS.fdamp_range h.phys
  obtain ⟨d, e⟩ := XAS.gamma3_range h.phys
  have f := XAS.gamma2_lo h.phys
  refine ⟨a, ?_, c, f, d, e⟩
  have : vD ρ = XAS.fdampOf (XAS.spinOf (bin ρ)) (XAS.eradOf (bin ρ)) := rfl
  rw [this]; norm_num at b ⊢; linarith

lemma Good.off {ρ : ℕ → ℝ} (h : Good ρ) : vD ρ * vG3 ρ / vG2 ρ < vRD ρ := by
  obtain ⟨a, b, c, d, e, f⟩ := h.bounds
  rw [div_lt_iff₀ (by norm_num at d ⊢; linarith)]
  norm_num at *
  nlinarith

lemma prims {ρ : ℕ → ℝ} (h : Good ρ) :
    DifferentiableAt ℝ (fun x : Fin 4 → ℝ => (XAS.get_cutoff_fMs (x 0) (x 1) (x 2) (x 3)).fRD)
      (fun j => ρ ((![1, 2, 3, 4] : Fin 4 → ℕ) j)) ∧
    DifferentiableAt ℝ (fun x : Fin 4 → ℝ => (XAS.get_cutoff_fMs (x 0) (x 1) (x 2) (x 3)).fdamp)
      (fun j => ρ ((![1, 2, 3, 4] : Fin 4 → ℕ) j)) ∧
    DifferentiableAt ℝ (fun x : Fin 4 → ℝ => (XAS.ringdown_Amp_fits (thetaOf x) XAS.PhenomX_amp_coeff_table).1)
      (fun j => ρ ((![1, 2, 3, 4] : Fin 4 → ℕ) j)) ∧
    DifferentiableAt ℝ (fun x : Fin 4 → ℝ => (XAS.ringdown_Amp_fits (thetaOf x) XAS.PhenomX_amp_coeff_table).2.1)
      (fun j => ρ ((![1, 2, 3, 4] : Fin 4 → ℕ) j)) ∧
    DifferentiableAt ℝ (fun x : Fin 4 → ℝ => (XAS.ringdown_Amp_fits (thetaOf x) XAS.PhenomX_amp_coeff_table).2.2)
      (fun j => ρ ((![1, 2, 3, 4] : Fin 4 → ℕ) j)) := by
  have F := fam h.phys h.ne
  exact ⟨F.fRD.differentiableAt (by simp), F.fdamp.differentiableAt (by simp), F.g2.differentiableAt (by simp),
    F.g3.differentiableAt (by simp), F.v1.differentiableAt (by simp)⟩

/-- the values after the first part -/
lemma pA_runR (ρ : ℕ → ℝ) : (∀ i, i ≤ 4 → runR ρ pA i = ρ i) ∧ runR ρ pA 5 = vRD ρ ∧ runR ρ pA 6 = vD ρ ∧
    runR ρ pA 7 = vG2 ρ ∧ runR ρ pA 8 = vG3 ρ ∧ runR ρ pA 10 = vG2 ρ * vG2 ρ ∧ runR ρ pA 11 = 1 ∧
    runR ρ pA 12 = 1 - vG2 ρ * vG2 ρ := by
  refine ⟨fun i hi => ?_, ?_, ?_, ?_, ?_, ?_, ?_, ?_⟩
  · interval_cases i <;> simp [pA, runR]
  all_goals simp [pA, runR, Op.evalR, vRD, vD, vG2, vG3, bin, thetaOf]

lemma pA_regular {ρ : ℕ → ℝ} (h : Good ρ) : Regular ρ pA := by
  obtain ⟨a, b, c, d, -⟩ := prims h
  simp only [pA, Regular, Op.Regular, Op.evalR, and_true]
  have e : ∀ (σ τ : ℕ → ℝ), (∀ i, 1 ≤ i → i ≤ 4 → σ i = τ i) → (fun j => σ ((![1, 2, 3, 4] : Fin 4 → ℕ) j)) =
      fun j => τ ((![1, 2, 3, 4] : Fin 4 → ℕ) j) := by
    intro σ τ h
    ext j; fin_cases j <;> exact h _ (by simp) (by simp)
  refine ⟨a, ?_, ?_, ?_⟩
  · rw [e _ ρ]; · exact b
    · intro i h1 h4; interval_cases i <;> simp
  · rw [e _ ρ]; · exact c
    · intro i h1 h4; interval_cases i <;> simp
  · rw [e _ ρ]; · exact d
    · intro i h1 h4; interval_cases i <;> simp

/-- the last parts, from the values they read -/
lemma tail_regular {σ : ℕ → ℝ} (h : Good σ) (h6 : 0 < σ 6) (h8 : 0 < σ 8) : Regular σ (pD ++ lorentzProg) := by
  obtain ⟨-, -, -, -, v⟩ := prims h
  have w := mul_pos h6 h8
  have k : (σ 0 - σ 5) * (σ 0 - σ 5) + σ 8 * σ 6 * (σ 8 * σ 6) ≠ 0 := by
    have := mul_pos h8 h6
    nlinarith [mul_self_nonneg (σ 0 - σ 5), mul_pos this this]
  have v' : DifferentiableAt ℝ (fun x : Fin 4 → ℝ => (XAS.ringdown_Amp_fits (thetaOf x) XAS.PhenomX_amp_coeff_table).2.2)
    (fun j => σ ((![1, 2, 3, 4] : Fin 4 → ℕ) j)) := v
  simp [pD, lorentzProg, Regular, Op.Regular, Op.evalR, h6.ne', h8.ne']
  exact ⟨v', k⟩

/-- `1 - gamma2 ^ 2 > 0`: the whole program is regular -/
lemma ringdown_regular {ρ : ℕ → ℝ} (h : Good ρ) (hg : vG2 ρ < 1) : Regular ρ ringdownProg := by
  obtain ⟨q0, q5, q6, q7, q8, q10, q11, q12⟩ := pA_runR ρ
  obtain ⟨b1, b2, b3, b4, b5, b6⟩ := h.bounds
  have off := h.off
  have p2 : 0 < vG2 ρ := by norm_num at b4; linarith
  have p3 : 0 < vG3 ρ := by norm_num at b5; linarith
  have e : ringdownProg = pA ++ ((pS ++ (pB ++ pC)) ++ (pD ++ lorentzProg)) := rfl
  rw [e, regular_append, regular_append]
  generalize hσ : runR ρ pA = σ at *
  refine ⟨pA_regular h, ?_, ?_⟩
  · have r1 : 0 < 1 - vG2 ρ * vG2 ρ := by nlinarith
    have s0 := Real.sqrt_nonneg (1 - vG2 ρ * vG2 ρ)
    have r2 : vRD ρ + vD ρ * vG3 ρ * (Real.sqrt (1 - vG2 ρ * vG2 ρ) - 1) / vG2 ρ ≠ 0 := by
      have : vD ρ * vG3 ρ * (Real.sqrt (1 - vG2 ρ * vG2 ρ) - 1) / vG2 ρ =
          vD ρ * vG3 ρ / vG2 ρ * Real.sqrt (1 - vG2 ρ * vG2 ρ) - vD ρ * vG3 ρ / vG2 ρ := by ring
      rw [this]
      have := mul_nonneg (div_pos (mul_pos b2 p3) p2).le s0
      linarith
    have r3' : vRD ρ + -(vD ρ * vG3 ρ) / vG2 ρ ≠ 0 := by
      have : -(vD ρ * vG3 ρ) / vG2 ρ = -(vD ρ * vG3 ρ / vG2 ρ) := by ring
      rw [this]; linarith
    simp [pS, pB, pC, Regular, Op.Regular, Op.evalR, q5, q6, q7, q8, q11, q12, p2.ne', r2, r3', hg.ne]
    nlinarith
  · have u : ∀ i, i ≤ 12 → runR σ (pS ++ (pB ++ pC)) i = σ i := by
      intro i hi
      interval_cases i <;> simp [pS, pB, pC, runR]
    have z : Good (runR σ (pS ++ (pB ++ pC))) := by
      refine ⟨?_, ?_⟩
      · unfold bin
        rw [u 1 (by norm_num), u 2 (by norm_num), u 3 (by norm_num), u 4 (by norm_num), q0 1 (by norm_num), q0 2 (by norm_num),
          q0 3 (by norm_num), q0 4 (by norm_num)]
        exact h.phys
      · rw [u 1 (by norm_num), u 2 (by norm_num), q0 1 (by norm_num), q0 2 (by norm_num)]
        exact h.ne
    exact tail_regular z (by rw [u 6 (by norm_num), q6]; exact b2) (by rw [u 8 (by norm_num), q8]; exact p3)

/-! ### nan -/

/-- `gamma2 > 1`: the cotangents of the binary are nan, whatever is computed from the two outputs -/
lemma ringdown_nan {ρ : ℕ → ℝ} (h : Good ρ) (hg : 1 < vG2 ρ) {ct : Cot} (hl : Live (ct 63) ∨ Live (ct 26)) (i : ℕ)
    (h1 : 1 ≤ i) (h4 : i ≤ 4) : back (fun i => .fin (ρ i)) ringdownProg ct i = some .nan := by
  have e : ringdownProg = pA ++ (pS ++ (pB ++ pC ++ pD ++ lorentzProg)) := rfl
  rw [e, back_append, back_append]
  obtain ⟨-, -, -, -, -, -, -, q12⟩ := pA_runR ρ
  have e12 : run (fun i => .fin (ρ i)) pA 12 = .fin (1 - vG2 ρ * vG2 ρ) := by rw [run_fin pA (pA_regular h), ← q12]
  generalize run (fun i => .fin (ρ i)) pA = env at e12 ⊢
  have hL : Live (back (run env pS) (pB ++ pC ++ pD ++ lorentzProg) ct 13) := by
    rcases hl with l | l
    · refine back_live (fun i => i == 63) _ _ ct (fun i hi => ?_) 13 (by decide +kernel)
      rw [beq_iff_eq] at hi; rw [hi]; exact l
    · refine back_live (fun i => i == 26) _ _ ct (fun i hi => ?_) 13 (by decide +kernel)
      rw [beq_iff_eq] at hi; rw [hi]; exact l
  generalize back (run env pS) (pB ++ pC ++ pD ++ lorentzProg) ct = c at hL ⊢
  obtain ⟨g, hgc⟩ := Option.ne_none_iff_exists'.1 hL
  have h12 : back env pS c 12 = some .nan := by
    have hs : XR.sqrt (env 12) = .nan := by rw [e12]; exact XR.sqrt_fin_neg (by nlinarith)
    show pullStep env 13 (.sqrt 12) c 12 = _
    unfold pullStep
    rw [hgc]
    show Cot.addAll _ _ 12 = _
    apply addAll_nan
    right
    simp [Op.pull, Op.eval, hs]
  have S : ∀ i, (i == 12) = true → back env pS c i = some .nan := by
    intro i hi
    rw [beq_iff_eq] at hi; rw [hi]; exact h12
  interval_cases i
  · exact back_nan _ pA _ _ S 1 (by decide +kernel)
  · exact back_nan _ pA _ _ S 2 (by decide +kernel)
  · exact back_nan _ pA _ _ S 3 (by decide +kernel)
  · exact back_nan _ pA _ _ S 4 (by decide +kernel)

/-! ### Values and the derivative in the frequency, also when `gamma2 > 1` -/

lemma run_agree {p : Prog} {env : ℕ → XR} {σ : ℕ → ℝ} {U : ℕ → Bool} (h : ∀ i, U i = true → env i = .fin (σ i))
    (hr : readsOnly p U = true) (hreg : Regular σ p) : ∀ i, known p U i = true → run env p i = .fin (runR σ p i) := by
  intro i hi
  rw [run_congr p h hr i hi, run_fin p hreg]

def pC' : Prog := [(20, .const (-1)), (21, .mul 6 20), (22, .mul 21 8), (23, .div 22 7), (24, .add 5 23), (25, .abs 24)]

/-- the variables read after the peak -/
def seen (i : ℕ) : Bool := i ≤ 12 || (20 ≤ i && i ≤ 26)

lemma peak_agree {ρ : ℕ → ℝ} (h : Good ρ) (hg : 1 < vG2 ρ) : ∀ i, seen i = true →
    run (fun i => .fin (ρ i)) (pA ++ (pS ++ (pB ++ pC))) i = .fin (runR ρ (pA ++ (pS ++ (pB ++ pC))) i) := by
  obtain ⟨q0, q5, q6, q7, q8, q10, q11, q12⟩ := pA_runR ρ
  obtain ⟨b1, b2, b3, b4, b5, b6⟩ := h.bounds
  have off := h.off
  have p2 : 0 < vG2 ρ := by norm_num at b4; linarith
  have eC : pC = pC' ++ [(26, .whereLe 7 1 19 25)] := rfl
  rw [run_append, runR_append, run_fin pA (pA_regular h)]
  generalize runR ρ pA = σ at *
  rw [← List.append_assoc, run_append, runR_append, eC, run_append, runR_append]
  have u : ∀ i, decide (i ≤ 12) = true → run (fun i => .fin (σ i)) (pS ++ pB) i = .fin (runR σ (pS ++ pB) i) := by
    intro i hi
    rw [decide_eq_true_eq] at hi
    interval_cases i <;> simp [pS, pB, run, runR]
  have u' : ∀ i, i ≤ 12 → runR σ (pS ++ pB) i = σ i := by
    intro i hi
    interval_cases i <;> simp [pS, pB, runR]
  generalize run (fun i => .fin (σ i)) (pS ++ pB) = env at u ⊢
  generalize runR σ (pS ++ pB) = τ at u u' ⊢
  have t5 := (u' 5 (by norm_num)).trans q5
  have t6 := (u' 6 (by norm_num)).trans q6
  have t7 := (u' 7 (by norm_num)).trans q7
  have t8 := (u' 8 (by norm_num)).trans q8
  have r3 : vRD ρ + -(vD ρ * vG3 ρ) / vG2 ρ ≠ 0 := by
    have : -(vD ρ * vG3 ρ) / vG2 ρ = -(vD ρ * vG3 ρ / vG2 ρ) := by ring
    rw [this]; linarith
  have reg : Regular τ pC' := by
    simp [pC', Regular, Op.Regular, Op.evalR, t5, t6, t7, t8, p2.ne', r3]
  have w := run_agree u (show readsOnly pC' _ = true by decide +kernel) reg
  have w7 := w 7 (by decide +kernel)
  have w25 := w 25 (by decide +kernel)
  have k7 : runR τ pC' 7 = vG2 ρ := by rw [← t7]; simp [pC', runR]
  have wi : ∀ i, i ≤ 12 ∨ 20 ≤ i ∧ i ≤ 25 → run env pC' i = .fin (runR τ pC' i) := by
    intro i hi
    apply w
    have : i ≤ 25 := by omega
    interval_cases i <;> first | (decide +kernel) | omega
  generalize run env pC' = env' at *
  generalize runR τ pC' = τ' at *
  intro i hi
  simp only [seen, Bool.or_eq_true, decide_eq_true_eq, Bool.and_eq_true] at hi
  have n1 : ¬ xle (XR.fin (vG2 ρ)) 1 := not_le.2 hg
  have n2 : ¬ vG2 ρ ≤ 1 := not_le.2 hg
  by_cases e : i = 26
  · subst e
    simp [run, runR, Op.eval, Op.evalR, w7, k7, n1, n2, w25]
  · simp only [run, runR, Function.update_of_ne e]
    exact wi i (by omega)

lemma ringdown_split : ringdownProg = (pA ++ (pS ++ (pB ++ pC))) ++ (pD ++ lorentzProg) := rfl

lemma seen_other {ρ : ℕ → ℝ} : ∀ i, i ≤ 4 → runR ρ (pA ++ (pS ++ (pB ++ pC))) i = ρ i := by
  intro i hi
  interval_cases i <;> simp [pA, pS, pB, pC, runR]

lemma tail_good {ρ : ℕ → ℝ} (h : Good ρ) : Regular (runR ρ (pA ++ (pS ++ (pB ++ pC)))) (pD ++ lorentzProg) := by
  obtain ⟨b1, b2, b3, b4, b5, b6⟩ := h.bounds
  have z : Good (runR ρ (pA ++ (pS ++ (pB ++ pC)))) := by
    refine ⟨?_, ?_⟩
    · unfold bin
      rw [seen_other 1 (by norm_num), seen_other 2 (by norm_num), seen_other 3 (by norm_num), seen_other 4 (by norm_num)]
      exact h.phys
    · rw [seen_other 1 (by norm_num), seen_other 2 (by norm_num)]
      exact h.ne
  refine tail_regular z ?_ ?_
  · have : runR ρ (pA ++ (pS ++ (pB ++ pC))) 6 = vD ρ := by
      simp [pA, pS, pB, pC, runR, Op.evalR, vD]
    rw [this]; exact b2
  · have : runR ρ (pA ++ (pS ++ (pB ++ pC))) 8 = vG3 ρ := by
      simp [pA, pS, pB, pC, runR, Op.evalR, vG3, thetaOf, bin]
    rw [this]; norm_num at b5; linarith

/-- the program computes the amplitude and the peak also when the unselected branch is nan -/
lemma ringdown_run {ρ : ℕ → ℝ} (h : Good ρ) (hg : 1 < vG2 ρ) (o : ℕ) (ho : o = 63 ∨ o = 26) :
    run (fun i => .fin (ρ i)) ringdownProg o = .fin (runR ρ ringdownProg o) := by
  rw [ringdown_split, run_append, runR_append]
  refine run_agree (peak_agree h hg) (by decide +kernel) (tail_good h) o ?_
  rcases ho with rfl | rfl <;> decide +kernel

lemma evalR_update (op : Op) (ρ : ℕ → ℝ) (i : ℕ) (t : ℝ) (h : i ∉ op.reads) :
    op.evalR (Function.update ρ i t) = op.evalR ρ := by
  cases op with
  | prim a f =>
    have : ∀ j, a j ≠ i := by
      intro j e
      apply h
      rw [← e]
      fin_cases j <;> simp [Op.reads, Op.args]
    simp [Op.evalR, this]
  | _ => simp_all [Op.evalR, Op.reads, Op.args, eq_comm]

/-- the program neither reads nor assigns the variable -/
def avoids : Prog → ℕ → Bool
  | [], _ => true
  | (d, op) :: p, i => i != d && !op.reads.contains i && avoids p i

lemma runR_update (i : ℕ) (t : ℝ) : ∀ (p : Prog) (ρ : ℕ → ℝ), avoids p i = true →
    runR (Function.update ρ i t) p = Function.update (runR ρ p) i t := by
  intro p
  induction p with
  | nil => intro ρ _; rfl
  | cons x p ih =>
    obtain ⟨d, op⟩ := x
    intro ρ h
    simp only [avoids, Bool.and_eq_true, bne_iff_ne, ne_eq, Bool.not_eq_true', List.contains_eq_mem,
      decide_eq_false_iff_not] at h
    show runR (Function.update _ d _) p = Function.update (runR _ p) i t
    rw [evalR_update op ρ i t h.1.2, Function.update_comm h.1.1, ih _ h.2]

/-- the derivative in the frequency is right, also when `gamma2 > 1` -/
lemma ringdown_freq {ρ : ℕ → ℝ} (h : Good ρ) (hg : 1 < vG2 ρ) :
    ∃ g : ℝ, grad ringdownProg (fun i => .fin (ρ i)) 63 0 = .fin g ∧
      HasDerivAt (fun t => runR (Function.update ρ 0 t) ringdownProg 63) g (ρ 0) := by
  have e : grad ringdownProg (fun i => .fin (ρ i)) 63 0 =
      grad (pD ++ lorentzProg) (fun i => .fin (runR ρ (pA ++ (pS ++ (pB ++ pC))) i)) 63 0 := by
    unfold grad
    rw [ringdown_split, back_append, back_ignores 0 _ _ _ (by decide +kernel),
      back_congr _ (peak_agree h hg) (by decide +kernel)]
  obtain ⟨g, h1, h2⟩ := grad_correct (tail_good h) 63 0
  refine ⟨g, e.trans h1, ?_⟩
  rw [seen_other 0 (by norm_num)] at h2
  refine h2.congr_of_eventuallyEq (.of_forall fun t => ?_)
  show runR (Function.update ρ 0 t) ringdownProg 63 = _
  rw [ringdown_split, runR_append]
  have : runR (Function.update ρ 0 t) (pA ++ (pS ++ (pB ++ pC))) =
      Function.update (runR ρ (pA ++ (pS ++ (pB ++ pC)))) 0 t := runR_update 0 t _ ρ (by decide +kernel)
  rw [this]

/-! ### Arguments -/

/-- the arguments as real variables -/
def argsR {n : ℕ} (v : Fin n → ℝ) : ℕ → ℝ := fun i => if h : i < n then v ⟨i, h⟩ else 0

lemma args_eq {n : ℕ} (v : Fin n → ℝ) : args v = fun i => .fin (argsR v i) := by
  ext i
  unfold args argsR
  split_ifs <;> rfl

lemma argsR_update {n : ℕ} (v : Fin n → ℝ) (i : Fin n) (t : ℝ) :
    Function.update (argsR v) i t = argsR (Function.update v i t) := by
  ext j
  unfold argsR
  by_cases e : j = i
  · subst e; simp
  · rw [Function.update_of_ne e]
    split_ifs with h
    · rw [Function.update_of_ne]
      intro k
      exact e (congrArg Fin.val k)
    · rfl

lemma argsR_self {n : ℕ} (v : Fin n → ℝ) (i : Fin n) : argsR v i = v i := by
  unfold argsR
  simp

end
end AD

namespace XAS

lemma g2_large (e S k : ℝ) (he : 0 ≤ e ∧ e ≤ 10 / 121) (hS : 0.92 ≤ S ∧ S ≤ 1) (hk : -2 ≤ k ∧ k ≤ 2) :
    0 < spG2 e S k - 1 := by
  unfold spG2
  affine_bnb [he, hS, hk] []

/-- `gamma2 > 1` for mass ratios from 10 with a primary spin from 0.95 -/
lemma gamma2_gt {theta : Theta} (h : theta.Physical) (hq : 10 * theta.m2 ≤ theta.m1) (hc : 0.95 ≤ theta.chi1) :
    1 < (ringdown_Amp_fits theta PhenomX_amp_coeff_table).1 := by
  rw [sp_gamma2]
  have he := etaOf_range h
  have hg := gt_pos
  have h1 := h.m1_pos
  have h2 := h.m2_pos
  obtain ⟨a, b⟩ := abs_le.1 h.chi1_le
  obtain ⟨c, d⟩ := abs_le.1 h.chi2_le
  have e2 : etaOf theta = theta.m1 * theta.m2 / (theta.m1 + theta.m2) ^ 2 := by
    unfold etaOf
    field_simp
  have e1 : etaOf theta ≤ 10 / 121 := by
    rw [e2, div_le_iff₀ (by positivity)]
    nlinarith [mul_nonneg (sub_nonneg.2 hq) h1.le, mul_nonneg (sub_nonneg.2 hq) h2.le]
  obtain ⟨d0, dlt, d2⟩ := dOf_range h
  have d1 : 9 / 11 ≤ dOf theta := by
    by_contra k
    push Not at k
    nlinarith
  have S : 0.92 ≤ stotOf theta := by
    rw [sp_stot]
    generalize dOf theta = x at d1 dlt ⊢
    rw [le_div_iff₀ (by positivity)]
    norm_num at hc ⊢
    nlinarith [mul_nonneg (sub_nonneg.2 d1) (sub_nonneg.2 dlt.le), mul_nonneg (sq_nonneg (1 + x)) (sub_nonneg.2 hc), mul_nonneg (sq_nonneg (1 - x)) (sub_nonneg.2 c)]
  linarith [g2_large _ _ _ ⟨he.1.le, e1⟩ ⟨S, stot_le b d⟩ (spin_diff h)]

end XAS
end Ripple

/-
  Reverse-mode differentiation of `Mc_eta_to_ms`.
-/
import Verif.Proofs.Autodiff
import Verif.Model.Autodiff
import Verif.Model.Conversions

namespace Ripple
namespace AD
open Classical

lemma mulInf_cases (g : XR) : g * XR.pinf = .nan ∨ g * XR.pinf = .pinf ∨ g * XR.pinf = .ninf := by
  cases g with
  | fin r =>
    show XR.infMul r = _ ∨ XR.infMul r = _ ∨ XR.infMul r = _
    unfold XR.infMul
    split_ifs <;> simp
  | pinf => right; left; rfl
  | ninf => right; right; rfl
  | nan => left; rfl

lemma pinf_mul {r : ℝ} (h : 0 < r) : XR.pinf * XR.fin r = .pinf := by
  show XR.infMul r = _
  simp [XR.infMul, h, h.ne']

lemma ninf_mul {r : ℝ} (h : 0 < r) : XR.ninf * XR.fin r = .ninf := by
  show XR.infMul (-r) = _
  simp [XR.infMul, h.ne', not_lt.2 h.le]

lemma mul_pinf {r : ℝ} (h : 0 < r) : XR.fin r * XR.pinf = .pinf := by
  show XR.infMul r = _
  simp [XR.infMul, h, h.ne']

lemma mul_ninf {r : ℝ} (h : 0 < r) : XR.fin r * XR.ninf = .ninf := by
  show XR.infMul (-r) = _
  simp [XR.infMul, h.ne', not_lt.2 h.le]

/-- two contributions of opposite infinite size add up to nan -/
lemma clash (y : Option XR) (g : XR) {M : ℝ} (hM : 0 < M) :
    (match y with
      | none => XR.fin 4 * (-(g * XR.pinf) * XR.fin (1 / 4)) * (XR.fin 2 * XR.fin M)
      | some y => y + XR.fin 4 * (-(g * XR.pinf) * XR.fin (1 / 4)) * (XR.fin 2 * XR.fin M))
      + g * XR.pinf * (XR.fin 2 * XR.fin M) = .nan := by
  have e1 : (0 : ℝ) < 1 / 4 := by norm_num
  have e2 : (0 : ℝ) < 4 := by norm_num
  have e3 : (0 : ℝ) < 2 * M := by linarith
  have n0 : -XR.nan = XR.nan := rfl
  have n1 : -XR.pinf = XR.ninf := rfl
  have n2 : -XR.ninf = XR.pinf := rfl
  rw [XR.mul_fin]
  rcases mulInf_cases g with h | h | h <;> rw [h]
  · simp
  · rw [n1, ninf_mul e1, mul_ninf e2, ninf_mul e3, pinf_mul e3]
    cases y with
    | none => rfl
    | some y => cases y <;> rfl
  · rw [n2, pinf_mul e1, mul_pinf e2, pinf_mul e3, ninf_mul e3]
    cases y with
    | none => rfl
    | some y => cases y <;> rfl

noncomputable def mA : Prog := [(2, .powf 1 (3 / 5)), (3, .div 0 2)]
noncomputable def mB : Prog := [(4, .square 3), (5, .square 3), (6, .const 4), (7, .mul 6 5), (8, .mul 7 1), (9, .sub 4 8), (10, .sqrt 9)]
noncomputable def mC : Prog := [(11, .sub 3 10), (12, .const 2), (13, .div 11 12), (14, .sub 3 13)]

lemma mass_split : massProg = mA ++ (mB ++ mC) := rfl

lemma mB_nan {env : ℕ → XR} {M : ℝ} (hM : 0 < M) (h3 : env 3 = .fin M) (h1 : env 1 = .fin (1 / 4)) {c : Cot} {g : XR}
    (hg : c 10 = some g) (hd : ∀ i, 4 ≤ i → i ≤ 9 → c i = none) : back env mB c 3 = some .nan := by
  have d4 := hd 4 (by norm_num) (by norm_num)
  have d5 := hd 5 (by norm_num) (by norm_num)
  have d6 := hd 6 (by norm_num) (by norm_num)
  have d7 := hd 7 (by norm_num) (by norm_num)
  have d8 := hd 8 (by norm_num) (by norm_num)
  have d9 := hd 9 (by norm_num) (by norm_num)
  have hz : XR.fin (M * M - 4 * (M * M) * 4⁻¹) = .fin 0 := by congr 1; ring
  have hs : XR.sqrt (.fin 0) = .fin 0 := by rw [XR.sqrt_fin le_rfl, Real.sqrt_zero]
  have hq : XR.fin 0.5 / XR.fin 0 = .pinf := XR.div_fin_zero_pos (by norm_num)
  have := clash (c 3) g hM
  rw [one_div] at this h1
  cases hc : c 3 with
  | none =>
    rw [hc] at this
    simp [mB, back, Op.eval, pullStep, Op.pull, Cot.addAll, Cot.add, h3, h1, hg, d4, d5, d6, d7, d8, d9, hz, hs, hq, hc]
    simpa using this
  | some y =>
    rw [hc] at this
    simp [mB, back, Op.eval, pullStep, Op.pull, Cot.addAll, Cot.add, h3, h1, hg, d4, d5, d6, d7, d8, d9, hz, hs, hq, hc]
    simpa using this

/-- at equal masses the cotangents of the chirp mass and of the mass ratio are nan, whatever is computed from the masses -/
lemma mass_nan {env : ℕ → XR} {Mc : ℝ} (hMc : 0 < Mc) (h0 : env 0 = .fin Mc) (h1 : env 1 = .fin (1 / 4)) {ct : Cot}
    (hl : Live (ct 14) ∨ Live (ct 13)) (hd : ∀ i, 2 ≤ i → i ≤ 12 → ct i = none) :
    back env massProg ct 0 = some .nan ∧ back env massProg ct 1 = some .nan := by
  rw [mass_split, back_append, back_append]
  have hp : (0 : ℝ) < (1 / 4) ^ ((3 : ℝ) / 5) := Real.rpow_pos_of_pos (by norm_num) _
  have e3 : run env mA 3 = .fin (Mc / (1 / 4) ^ ((3 : ℝ) / 5)) := by
    have : ¬ ((1 : ℝ) / 4 < 0) := by norm_num
    simp only [mA, run, Op.eval, Function.update_self, Function.update_of_ne (show (0 : ℕ) ≠ 2 by norm_num), h0, h1, XR.powFrac,
      this, if_false, XR.div_fin _ hp.ne']
  have e1 : run env mA 1 = .fin (1 / 4) := by
    simp [mA, run, Op.eval, h1]
  have hL : Live (back (run (run env mA) mB) mC ct 10) := by
    rcases hl with h | h
    · refine back_live (fun i => i == 14) mC _ ct (fun i hi => ?_) 10 (by decide +kernel)
      rw [beq_iff_eq] at hi; rw [hi]; exact h
    · refine back_live (fun i => i == 13) mC _ ct (fun i hi => ?_) 10 (by decide +kernel)
      rw [beq_iff_eq] at hi; rw [hi]; exact h
  obtain ⟨g, hg⟩ := Option.ne_none_iff_exists'.1 hL
  have hD : ∀ i, 4 ≤ i → i ≤ 9 → back (run (run env mA) mB) mC ct i = none := by
    intro i h4 h9
    refine back_dead (fun i => 2 ≤ i && i ≤ 12) mC _ ct (fun i hi => ?_) i ?_
    · simp only [Bool.and_eq_true, decide_eq_true_eq] at hi
      exact hd i hi.1 hi.2
    · interval_cases i <;> decide +kernel
  have h3 := mB_nan (div_pos hMc hp) e3 e1 hg hD
  have S : ∀ i, (i == 3) = true → back (run env mA) mB (back (run (run env mA) mB) mC ct) i = some .nan := by
    intro i hi
    rw [beq_iff_eq] at hi; rw [hi]; exact h3
  exact ⟨back_nan _ mA _ _ S 0 (by decide +kernel), back_nan _ mA _ _ S 1 (by decide +kernel)⟩

/-- the masses over the reals -/
lemma mass_runR (ρ : ℕ → ℝ) : runR ρ massProg 14 = (Mc_eta_to_ms (ρ 0) (ρ 1)).1 ∧
    runR ρ massProg 13 = (Mc_eta_to_ms (ρ 0) (ρ 1)).2 := by
  unfold Mc_eta_to_ms
  constructor
  · simp [massProg, runR, Op.evalR, sq]
  · simp [massProg, runR, Op.evalR, sq]

lemma mass_regular {ρ : ℕ → ℝ} (h0 : 0 < ρ 0) (h1 : 0 < ρ 1) (h1' : ρ 1 < 1 / 4) : Regular ρ massProg := by
  have hp : 0 < ρ 1 ^ ((3 : ℝ) / 5) := Real.rpow_pos_of_pos h1 _
  have hM : 0 < ρ 0 / ρ 1 ^ ((3 : ℝ) / 5) := div_pos h0 hp
  have : 0 < ρ 0 / ρ 1 ^ ((3 : ℝ) / 5) * (ρ 0 / ρ 1 ^ ((3 : ℝ) / 5)) -
      4 * (ρ 0 / ρ 1 ^ ((3 : ℝ) / 5) * (ρ 0 / ρ 1 ^ ((3 : ℝ) / 5))) * ρ 1 := by
    generalize ρ 0 / ρ 1 ^ ((3 : ℝ) / 5) = M at hM ⊢
    have := mul_pos hM hM
    nlinarith
  simp [massProg, Regular, Op.Regular, Op.evalR, h1, hp.ne', this]

end AD
end Ripple

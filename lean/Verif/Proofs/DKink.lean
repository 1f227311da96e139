/-
  The tabulated ringdown frequency has a kink: at some node of the table the slopes on both sides differ.
-/
import Verif.Proofs.DSmooth
import Verif.Props.QNM

namespace Ripple
open scoped ContDiff Topology
open Set Filter QNMData Scipy

namespace PhenomD

/-- a sequence whose middle value is not the mean of the outer ones bends somewhere -/
lemma exists_bend (F : ℕ → ℝ) (a n : ℕ) (h : F a + F (a + 2 * n) ≠ 2 * F (a + n)) :
    ∃ k, a ≤ k ∧ k + 2 ≤ a + 2 * n ∧ F (k + 1) - F k ≠ F (k + 2) - F (k + 1) := by
  by_contra hc
  push Not at hc
  have step : ∀ i, i + 1 ≤ 2 * n → F (a + i + 1) - F (a + i) = F (a + 1) - F a := by
    intro i
    induction i with
    | zero => intro _; rfl
    | succ i ih =>
      intro hi
      rw [← ih (by omega), hc (a + i) (by omega) (by omega)]
      rfl
  have lin : ∀ i, i ≤ 2 * n → F (a + i) = F a + i * (F (a + 1) - F a) := by
    intro i
    induction i with
    | zero => intro _; simp
    | succ i ih =>
      intro hi
      have h1 := ih (by omega)
      have h2 := step i hi
      rw [← add_assoc]
      push_cast
      linarith
  refine h ?_
  rw [lin _ le_rfl, lin n (by omega)]
  push_cast
  ring

/-- the value of the ringdown table near a published spin -/
lemma tableRD_near (eps : ℝ) (k i : ℕ) (hk : k < 500000) (hi : i < 1003) {s v : ℝ} (hs : knots.getD i 0 = s)
    (hv : valRD.getD i 0 = v) (h1 : s < -1 + 2 * (k : ℝ) / 499999) (h2 : -1 + 2 * (k : ℝ) / 499999 ≤ s + 1e-5) :
    |(qnmTable eps).fRD.getD k 0 - v| ≤ 1e-4 := by
  have hs1 := good.le le_rfl (Nat.zero_le i) (by rw [knots_length]; exact hi)
  rw [knot_first, hs] at hs1
  have e : (qnmTable eps).fRD.getD k 0 = CubicSpline knots valRD (-1 + 2 * (k : ℝ) / 499999) := by
    rw [table_RD, grid_map_getD _ k hk, grid_getD k hk]
  have hk' : (k : ℝ) ≤ 499999 := by exact_mod_cast (by omega : k ≤ 499999)
  have hl := splineRD_lip hs1 h1 (by linarith [div_le_one_of_le₀ hk' (by norm_num), mul_div_assoc 2 (k : ℝ) 499999])
  have hkn := spline_knot valRD i hi
  rw [hs, hv] at hkn
  rw [hkn] at hl
  rw [e]
  refine hl.trans ?_
  linarith

/-- the ringdown table bends at a node between spins 0.2 and 0.8 -/
lemma tableRD_bend (eps : ℝ) : ∃ k, k + 2 < 500000 ∧ (0.2 : ℝ) < -1 + 2 * ((k + 1 : ℕ) : ℝ) / 499999 ∧
    -1 + 2 * ((k + 1 : ℕ) : ℝ) / 499999 < 0.8 + 1e-5 ∧
    (qnmTable eps).fRD.getD (k + 1) 0 - (qnmTable eps).fRD.getD k 0 ≠
      (qnmTable eps).fRD.getD (k + 2) 0 - (qnmTable eps).fRD.getD (k + 1) 0 := by
  have a := tableRD_near eps 300000 601 (by norm_num) (by norm_num) (s := 0.2) (v := 0.0640034)
    (by rw [knots_getD 601 (by norm_num)]; norm_num [X]) (by
      rw [valRD_getD, show fRD.getD 601 0 = 6400340 by decide +kernel]; norm_num) (by norm_num) (by norm_num)
  have b := tableRD_near eps 375000 751 (by norm_num) (by norm_num) (s := 0.5) (v := 0.0738675)
    (by rw [knots_getD 751 (by norm_num)]; norm_num [X]) (by
      rw [valRD_getD, show fRD.getD 751 0 = 7386750 by decide +kernel]; norm_num) (by norm_num) (by norm_num)
  have c := tableRD_near eps 450000 901 (by norm_num) (by norm_num) (s := 0.8) (v := 0.0932675)
    (by rw [knots_getD 901 (by norm_num)]; norm_num [X]) (by
      rw [valRD_getD, show fRD.getD 901 0 = 9326750 by decide +kernel]; norm_num) (by norm_num) (by norm_num)
  obtain ⟨k, h1, h2, h3⟩ := exists_bend (fun k => (qnmTable eps).fRD.getD k 0) 300000 75000 (by
    rw [abs_le] at a b c
    norm_num at a b c ⊢
    intro h
    linarith [a.1, a.2, b.1, b.2, c.1, c.2])
  refine ⟨k, by omega, ?_, ?_, h3⟩
  · have : (300000 : ℝ) ≤ k := by exact_mod_cast h1
    clear a b c h1 h2 h3
    push_cast
    norm_num
    linarith
  · have : (k : ℝ) + 2 ≤ 450000 := by exact_mod_cast (by omega : k + 2 ≤ 450000)
    clear a b c h1 h2 h3
    push_cast
    norm_num
    linarith

/-- a composition with a function that has different slopes on both sides is not differentiable where the inner function
    increases -/
lemma not_diff_of_kink {I r : ℝ → ℝ} {c x0 x1 x2 y s1 s2 r' : ℝ} (hr : HasDerivAt r r' c) (hr' : 0 < r') (hx : r c = x1)
    (mono : ∀ᶠ d in 𝓝 c, (c ≤ d → x1 ≤ r d) ∧ (d ≤ c → r d ≤ x1)) (h01 : x0 < x1) (h12 : x1 < x2)
    (hl : ∀ v, x0 ≤ v → v ≤ x1 → I v = y + (v - x1) * s1) (hr2 : ∀ v, x1 ≤ v → v ≤ x2 → I v = y + (v - x1) * s2)
    (hne : s1 ≠ s2) : ¬ DifferentiableAt ℝ (fun d => I (r d)) c := by
  intro hd
  have near : ∀ᶠ d in 𝓝 c, r d ∈ Ioo x0 x2 :=
    hr.continuousAt.eventually (by rw [hx]; exact Ioo_mem_nhds h01 h12)
  have A : ∀ s : ℝ, HasDerivAt (fun d => y + (r d - x1) * s) (r' * s) c := fun s =>
    ((hr.sub_const x1).mul_const s).const_add y
  have R : HasDerivWithinAt (fun d => I (r d)) (r' * s2) (Ici c) c := by
    refine ((A s2).hasDerivWithinAt).congr_of_eventuallyEq ?_ (by rw [hx]; exact hr2 _ le_rfl h12.le)
    filter_upwards [self_mem_nhdsWithin, nhdsWithin_le_nhds near, nhdsWithin_le_nhds mono] with d h1 h2 h3
    exact hr2 _ (h3.1 h1) h2.2.le
  have L : HasDerivWithinAt (fun d => I (r d)) (r' * s1) (Iic c) c := by
    refine ((A s1).hasDerivWithinAt).congr_of_eventuallyEq ?_ (by rw [hx]; exact hl _ h01.le le_rfl)
    filter_upwards [self_mem_nhdsWithin, nhdsWithin_le_nhds near, nhdsWithin_le_nhds mono] with d h1 h2 h3
    exact hl _ h2.1.le (h3.2 h1)
  have e1 := (uniqueDiffWithinAt_Ici c).eq_deriv _ R hd.hasDerivAt.hasDerivWithinAt
  have e2 := (uniqueDiffWithinAt_Iic c).eq_deriv _ L hd.hasDerivAt.hasDerivWithinAt
  exact hne (mul_left_cancel₀ hr'.ne' (e2.trans e1.symm))

end PhenomD
end Ripple

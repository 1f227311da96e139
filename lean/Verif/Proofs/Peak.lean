/-
  Monotonicity of the damped Lorentzian of the merger-ringdown amplitude.
-/
import Verif.Model.PhenomD
import Mathlib.Analysis.Calculus.Deriv.MeanValue
import Mathlib.Analysis.SpecialFunctions.ExpDeriv
import Mathlib.Order.Monotone.Union
import Mathlib.Analysis.Calculus.Deriv.Pow
import Mathlib.Analysis.Calculus.Deriv.Inv

namespace Ripple
namespace PhenomD
open Set

/-- the merger-ringdown amplitude as function of `u = fM - fRD` -/
noncomputable def lor (g1 g2 w u : ℝ) : ℝ := Real.exp (-u * g2 / w) * (w * g1) / (u ^ 2 + w ^ 2)

lemma lor_deriv {g1 g2 w : ℝ} (hw : 0 < w) (u : ℝ) :
    HasDerivAt (lor g1 g2 w)
      (-(g1 * Real.exp (-u * g2 / w) / (u ^ 2 + w ^ 2) ^ 2 * (g2 * u ^ 2 + 2 * w * u + g2 * w ^ 2))) u := by
  have hden : u ^ 2 + w ^ 2 ≠ 0 := by positivity
  have h1 : HasDerivAt (fun u : ℝ => -u * g2 / w) (-g2 / w) u := by
    have := (((hasDerivAt_id u).neg).mul_const g2).div_const w
    simpa using this
  have h2 : HasDerivAt (fun u : ℝ => u ^ 2 + w ^ 2) (2 * u) u := by
    have := ((hasDerivAt_id u).pow 2).add_const (w ^ 2)
    simpa using this
  have h3 := ((h1.exp).mul_const (w * g1)).div h2 hden
  have h4 : HasDerivAt (lor g1 g2 w) _ u := h3
  convert h4 using 1
  field_simp
  ring

lemma lor_cont {g1 g2 w : ℝ} (hw : 0 < w) : Continuous (lor g1 g2 w) :=
  continuous_iff_continuousAt.2 fun u => (lor_deriv hw u).continuousAt

lemma lor_anti_on {g1 g2 w : ℝ} (hg1 : 0 < g1) (hw : 0 < w) {s : Set ℝ} (hs : Convex ℝ s)
    (h : ∀ u ∈ interior s, 0 < g2 * u ^ 2 + 2 * w * u + g2 * w ^ 2) : StrictAntiOn (lor g1 g2 w) s := by
  refine strictAntiOn_of_deriv_neg hs (lor_cont hw).continuousOn fun u hu => ?_
  rw [(lor_deriv hw u).deriv]
  have := h u hu
  have h2 : 0 < g1 * Real.exp (-u * g2 / w) / (u ^ 2 + w ^ 2) ^ 2 := by positivity
  have := mul_pos h2 this
  linarith

lemma lor_mono_on {g1 g2 w : ℝ} (hg1 : 0 < g1) (hw : 0 < w) {s : Set ℝ} (hs : Convex ℝ s)
    (h : ∀ u ∈ interior s, g2 * u ^ 2 + 2 * w * u + g2 * w ^ 2 < 0) : StrictMonoOn (lor g1 g2 w) s := by
  refine strictMonoOn_of_deriv_pos hs (lor_cont hw).continuousOn fun u hu => ?_
  rw [(lor_deriv hw u).deriv]
  have := h u hu
  have h2 : 0 < g1 * Real.exp (-u * g2 / w) / (u ^ 2 + w ^ 2) ^ 2 := by positivity
  have := mul_neg_of_pos_of_neg h2 this
  linarith

lemma lor_anti {g1 g2 w : ℝ} (hg1 : 0 < g1) (hw : 0 < w) (hg2 : 1 ≤ g2) : StrictAnti (lor g1 g2 w) := by
  have key : ∀ u, u ≠ -w → 0 < g2 * u ^ 2 + 2 * w * u + g2 * w ^ 2 := by
    intro u hu
    have h1 : 0 < (u + w) ^ 2 := by
      have : u + w ≠ 0 := fun h => hu (by linarith)
      positivity
    nlinarith [sq_nonneg u, sq_nonneg w]
  refine StrictAntiOn.Iic_union_Ici (a := -w) ?_ ?_
  · refine lor_anti_on hg1 hw (convex_Iic _) fun u hu => ?_
    rw [interior_Iic] at hu
    exact key u (ne_of_lt hu)
  · refine lor_anti_on hg1 hw (convex_Ici _) fun u hu => ?_
    rw [interior_Ici] at hu
    exact key u (ne_of_gt hu)

lemma quad_factor {g2 w u s : ℝ} (hg2 : 0 < g2) (hs : s ^ 2 = 1 - g2 ^ 2) :
    g2 * u ^ 2 + 2 * w * u + g2 * w ^ 2 =
      g2 * (u - w * (-1 + s) / g2) * (u + w * (1 + s) / g2) := by
  field_simp
  linear_combination w ^ 2 * hs

end PhenomD
end Ripple

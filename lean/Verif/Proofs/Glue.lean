/-
  Gluing of continuously differentiable functions at a point, and heaviside evaluation.
-/
import Verif.Prelude.Jnp
import Mathlib.Analysis.Calculus.ContDiff.Basic
import Mathlib.Analysis.Calculus.ContDiff.Deriv
import Mathlib.Analysis.Calculus.Deriv.Slope

namespace Ripple
open Set Filter Topology

namespace Jnp
lemma heaviside_neg {x h : ℝ} (hx : x < 0) : heaviside x h = 0 := by simp [heaviside, hx]
lemma heaviside_zero {h : ℝ} : heaviside 0 h = h := by simp [heaviside]
lemma heaviside_pos {x h : ℝ} (hx : 0 < x) : heaviside x h = 1 := by
  simp [heaviside, not_lt.2 hx.le, hx.ne']
end Jnp

lemma continuousAt_of_sides {g u v : ℝ → ℝ} {a : ℝ} (hu : ContinuousAt u a) (hv : ContinuousAt v a)
    (hl : ∀ᶠ x in 𝓝 a, x ≤ a → g x = u x) (hr : ∀ᶠ x in 𝓝 a, a ≤ x → g x = v x) : ContinuousAt g a := by
  have h1 : ContinuousWithinAt g (Iic a) a := by
    refine hu.continuousWithinAt.congr_of_eventuallyEq ?_ (hl.self_of_nhds le_rfl)
    exact eventually_nhdsWithin_iff.2 hl
  have h2 : ContinuousWithinAt g (Ici a) a := by
    refine hv.continuousWithinAt.congr_of_eventuallyEq ?_ (hr.self_of_nhds le_rfl)
    exact eventually_nhdsWithin_iff.2 hr
  have := h1.union h2
  rw [Iic_union_Ici] at this
  exact (continuousWithinAt_univ _ _).1 this

lemma hasDerivAt_of_sides {g u v : ℝ → ℝ} {a d : ℝ} (hu : HasDerivAt u d a) (hv : HasDerivAt v d a)
    (hl : ∀ᶠ x in 𝓝 a, x ≤ a → g x = u x) (hr : ∀ᶠ x in 𝓝 a, a ≤ x → g x = v x) : HasDerivAt g d a := by
  have h1 : HasDerivWithinAt g d (Iic a) a := by
    refine hu.hasDerivWithinAt.congr_of_eventuallyEq ?_ (hl.self_of_nhds le_rfl)
    exact eventually_nhdsWithin_iff.2 hl
  have h2 : HasDerivWithinAt g d (Ici a) a := by
    refine hv.hasDerivWithinAt.congr_of_eventuallyEq ?_ (hr.self_of_nhds le_rfl)
    exact eventually_nhdsWithin_iff.2 hr
  have := h1.union h2
  rw [Iic_union_Ici] at this
  exact hasDerivWithinAt_univ.1 this

lemma contDiffOn_one_iff {g : ℝ → ℝ} {s : Set ℝ} (hs : IsOpen s) :
    ContDiffOn ℝ 1 g s ↔ DifferentiableOn ℝ g s ∧ ContinuousOn (deriv g) s := by
  rw [show (1 : WithTop ℕ∞) = 0 + 1 from rfl, contDiffOn_succ_iff_deriv_of_isOpen hs]
  simp

/-- `g` equals `u` up to `a` and `v` from `a` on; `u`, `v` are C¹ and agree at `a` in value and slope. -/
lemma contDiffOn_glue {u v g : ℝ → ℝ} {a : ℝ} {s : Set ℝ} (hs : IsOpen s) (hu : ContDiffOn ℝ 1 u s)
    (hv : ContDiffOn ℝ 1 v s) (h1 : deriv u a = deriv v a)
    (hl : ∀ x ∈ s, x ≤ a → g x = u x) (hr : ∀ x ∈ s, a ≤ x → g x = v x) : ContDiffOn ℝ 1 g s := by
  rw [contDiffOn_one_iff hs] at hu hv ⊢
  have lt : ∀ x ∈ s, x < a → g =ᶠ[𝓝 x] u := fun x hx hxa => by
    filter_upwards [hs.mem_nhds hx, Iio_mem_nhds hxa] with y hy hy' using hl y hy (le_of_lt hy')
  have gt : ∀ x ∈ s, a < x → g =ᶠ[𝓝 x] v := fun x hx hxa => by
    filter_upwards [hs.mem_nhds hx, Ioi_mem_nhds hxa] with y hy hy' using hr y hy (le_of_lt hy')
  have hd : ∀ x ∈ s, (x ≤ a → HasDerivAt g (deriv u x) x) ∧ (a ≤ x → HasDerivAt g (deriv v x) x) := by
    intro x hx
    have dux := ((hu.1 x hx).differentiableAt (hs.mem_nhds hx)).hasDerivAt
    have dvx := ((hv.1 x hx).differentiableAt (hs.mem_nhds hx)).hasDerivAt
    rcases lt_trichotomy x a with h | h | h
    · exact ⟨fun _ => dux.congr_of_eventuallyEq (lt x hx h), fun h' => absurd h (not_lt.2 h')⟩
    · subst h
      have : HasDerivAt g (deriv u x) x := by
        refine hasDerivAt_of_sides dux (h1 ▸ dvx) ?_ ?_
        · filter_upwards [hs.mem_nhds hx] with y hy using hl y hy
        · filter_upwards [hs.mem_nhds hx] with y hy using hr y hy
      exact ⟨fun _ => this, fun _ => h1 ▸ this⟩
    · exact ⟨fun h' => absurd h (not_lt.2 h'), fun _ => dvx.congr_of_eventuallyEq (gt x hx h)⟩
  refine ⟨fun x hx => ?_, fun x hx => ?_⟩
  · rcases le_total x a with h | h
    · exact ((hd x hx).1 h).differentiableAt.differentiableWithinAt
    · exact ((hd x hx).2 h).differentiableAt.differentiableWithinAt
  · refine ContinuousAt.continuousWithinAt ?_
    have cu := (hu.2 x hx).continuousAt (hs.mem_nhds hx)
    have cv := (hv.2 x hx).continuousAt (hs.mem_nhds hx)
    rcases lt_trichotomy x a with h | h | h
    · exact cu.congr (lt x hx h).deriv.symm
    · subst h
      refine continuousAt_of_sides cu cv ?_ ?_
      · filter_upwards [hs.mem_nhds hx] with y hy hyx using ((hd y hy).1 hyx).deriv
      · filter_upwards [hs.mem_nhds hx] with y hy hyx using ((hd y hy).2 hyx).deriv
    · exact cv.congr (gt x hx h).deriv.symm

open Jnp in
/-- three C¹ pieces joined with half-weight heaviside factors -/
lemma contDiffOn_three {s : Set ℝ} (hs : IsOpen s) {p0 p1 p2 : ℝ → ℝ} {a b : ℝ} (hab : a < b)
    (c0 : ContDiffOn ℝ 1 p0 s) (c1 : ContDiffOn ℝ 1 p1 s) (c2 : ContDiffOn ℝ 1 p2 s)
    (va : p0 a = p1 a) (da : deriv p0 a = deriv p1 a) (vb : p1 b = p2 b) (db : deriv p1 b = deriv p2 b) :
    ContDiffOn ℝ 1 (fun x => p0 x * heaviside (a - x) 0.5
      + heaviside (x - a) 0.5 * p1 x * heaviside (b - x) 0.5 + p2 x * heaviside (x - b) 0.5) s := by
  classical
  set g1 : ℝ → ℝ := fun x => if x ≤ a then p0 x else p1 x with hg1
  have e1 : ∀ x, a ≤ x → g1 x = p1 x := by
    intro x hx
    simp only [hg1]
    split_ifs with h
    · rw [le_antisymm h hx, va]
    · rfl
  have cg1 : ContDiffOn ℝ 1 g1 s :=
    contDiffOn_glue hs c0 c1 da (fun x _ h => by simp [hg1, h]) (fun x _ h => e1 x h)
  have dg1 : deriv g1 b = deriv p1 b := by
    apply Filter.EventuallyEq.deriv_eq
    filter_upwards [Ioi_mem_nhds hab] with x hx using e1 x (le_of_lt hx)
  refine contDiffOn_glue hs cg1 c2 (dg1.trans db) ?_ ?_
  · intro x _ hx
    rcases hx.lt_or_eq with hx | rfl
    · rw [heaviside_neg (x := x - b) (by linarith), heaviside_pos (x := b - x) (by linarith)]
      rcases lt_trichotomy x a with h | rfl | h
      · rw [heaviside_pos (by linarith), heaviside_neg (x := x - a) (by linarith)]; simp [hg1, h.le]
      · rw [sub_self, heaviside_zero]; simp only [hg1, le_refl, if_true, ← va]; ring
      · rw [heaviside_neg (by linarith), heaviside_pos (x := x - a) (by linarith), e1 x h.le]; ring
    · rw [sub_self, heaviside_zero, heaviside_neg (by linarith), heaviside_pos (x := x - a) (by linarith),
        e1 x hab.le, ← vb]; ring
  · intro x _ hx
    have hax : a < x := by linarith
    rw [heaviside_neg (x := a - x) (by linarith), heaviside_pos (x := x - a) (by linarith)]
    rcases hx.lt_or_eq with hx | rfl
    · rw [heaviside_neg (x := b - x) (by linarith), heaviside_pos (x := x - b) (by linarith)]; ring
    · rw [sub_self, heaviside_zero, vb]; ring

end Ripple

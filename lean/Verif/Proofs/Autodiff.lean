/-
  Reverse-mode differentiation returns the derivative when every intermediate value is regular, and nan travels against the
  direction of evaluation.
-/
import Verif.Spec.Autodiff
import Mathlib.Analysis.SpecialFunctions.Pow.Deriv
import Mathlib.Analysis.SpecialFunctions.ExpDeriv
import Mathlib.Analysis.SpecialFunctions.Sqrt
import Mathlib.Analysis.Calculus.Deriv.Abs
import Mathlib.Analysis.SpecialFunctions.Complex.LogDeriv
import Mathlib.Analysis.SpecialFunctions.Trigonometric.InverseDeriv
import Mathlib.Analysis.Calculus.FDeriv.Pi
import Mathlib.Analysis.Calculus.Deriv.Pi

namespace Ripple
namespace AD
open Classical

/-- the partial derivatives of an operation -/
noncomputable def Op.partials (ρ : ℕ → ℝ) : Op → List (ℕ × ℝ)
  | .const _ => []
  | .add a b => [(a, 1), (b, 1)]
  | .sub a b => [(a, 1), (b, -1)]
  | .mul a b => [(a, ρ b), (b, ρ a)]
  | .div a b => [(a, 1 / ρ b), (b, -ρ a * (1 / (ρ b * ρ b)))]
  | .neg a => [(a, -1)]
  | .sqrt a => [(a, 0.5 / Real.sqrt (ρ a))]
  | .abs a => [(a, if 0 < ρ a then 1 else if ρ a < 0 then -1 else 0)]
  | .exp a => [(a, Real.exp (ρ a))]
  | .square a => [(a, 2 * ρ a)]
  | .powf a p => [(a, p * ρ a ^ (p - 1))]
  | .whereLe c k a b => [(a, if ρ c ≤ k then 1 else 0), (b, if ρ c ≤ k then 0 else 1)]
  | .sin a => [(a, Real.cos (ρ a))]
  | .cos a => [(a, -Real.sin (ρ a))]
  | .acos a => [(a, -(1 / Real.sqrt (1 - ρ a * ρ a)))]
  | .atan2 a b => [(a, ρ b / (ρ a * ρ a + ρ b * ρ b)), (b, -ρ a / (ρ a * ρ a + ρ b * ρ b))]
  | .max a b => [(a, if ρ b ≤ ρ a then 1 else 0), (b, if ρ a ≤ ρ b then 1 else 0)]
  | .prim a f => (List.finRange 4).map fun j => (a j,
      deriv (fun t => f (Function.update (fun j => ρ (a j)) j t)) (ρ (a j)))

lemma eval_fin {ρ : ℕ → ℝ} {op : Op} (h : op.Regular ρ) : op.eval (fun i => .fin (ρ i)) = .fin (op.evalR ρ) := by
  cases op with
  | div a b => exact XR.div_fin _ h
  | sqrt a => exact XR.sqrt_fin (le_of_lt h)
  | powf a p => simp [Op.eval, Op.evalR, XR.powFrac, not_lt.2 (le_of_lt (show 0 < ρ a from h))]
  | whereLe c k a b => by_cases l : ρ c ≤ k <;> simp [Op.eval, Op.evalR, xle, l]
  | acos a => simp [Op.eval, Op.evalR, xacos, (show -1 < ρ a ∧ ρ a < 1 from h).1.le, (show -1 < ρ a ∧ ρ a < 1 from h).2.le]
  | max a b =>
    by_cases l : ρ a < ρ b
    · simp [Op.eval, Op.evalR, xmax, XR.lt, l, l.le]
    · simp [Op.eval, Op.evalR, xmax, XR.lt, l, not_lt.1 l]
  | prim a f => simp [Op.eval, Op.evalR, toReal]
  | _ => simp [Op.eval, Op.evalR, xabs, XR.exp, xtrig, xatan2]

lemma pull_fin {ρ : ℕ → ℝ} {op : Op} (h : op.Regular ρ) (g : ℝ) :
    op.pull (fun i => .fin (ρ i)) (.fin (op.evalR ρ)) (.fin g) =
      (op.partials ρ).map fun x => (x.1, .fin (g * x.2)) := by
  cases op with
  | div a b =>
    have h' : ρ b ≠ 0 := h
    simp only [Op.pull, Op.partials, XR.div_fin _ h', XR.mul_fin, XR.neg_fin, XR.div_fin _ (mul_ne_zero h' h'), List.map]
    have e1 : g / ρ b = g * (1 / ρ b) := by ring
    have e2 : -g * ρ a * (1 / (ρ b * ρ b)) = g * (-ρ a * (1 / (ρ b * ρ b))) := by ring
    rw [e1, e2]
  | sqrt a => 
    have h' : 0 < ρ a := h
    simp [Op.pull, Op.partials, Op.evalR, XR.div_fin _ (Real.sqrt_pos.2 h').ne']
  | abs a => simp [Op.pull, Op.partials, xsign]
  | powf a p => 
    have h' : 0 < ρ a := h
    simp [Op.pull, Op.partials, xpowfD, not_lt.2 h'.le, h'.ne']
  | whereLe c k a b => by_cases l : ρ c ≤ k <;> simp [Op.pull, Op.partials, xle, l]
  | acos a =>
    have h' : -1 < ρ a ∧ ρ a < 1 := h
    have k : 0 < 1 - ρ a * ρ a := by nlinarith [h'.1, h'.2]
    simp [Op.pull, Op.partials, XR.sqrt_fin k.le, XR.div_fin _ (Real.sqrt_pos.2 k).ne']
  | atan2 a b =>
    have k : ρ a * ρ a + ρ b * ρ b ≠ 0 := by
      rcases (show 0 < ρ b ∨ ρ a ≠ 0 from h) with h | h
      · nlinarith [mul_self_nonneg (ρ a), mul_pos h h]
      · have := mul_self_pos.2 h
        nlinarith [mul_self_nonneg (ρ b)]
    simp [Op.pull, Op.partials, XR.div_fin _ k]
  | max a b =>
    rcases lt_or_gt_of_ne (show ρ a ≠ ρ b from h) with l | l
    · simp [Op.pull, Op.partials, Op.evalR, balanced, xeq, l.le, l.ne, not_le.2 l, XR.div_fin]
    · simp [Op.pull, Op.partials, Op.evalR, balanced, xeq, l.le, l.ne, not_le.2 l, XR.div_fin]
  | sin a => simp [Op.pull, Op.partials, xtrig]
  | cos a => simp [Op.pull, Op.partials, xtrig]
  | prim a f => simp [Op.pull, Op.partials, toReal]
  | mul a b => simp [Op.pull, Op.partials]; ring_nf
  | _ => simp [Op.pull, Op.partials, Op.evalR]

/-- the directional derivative of an operation -/
noncomputable def Op.tan (ρ τ : ℕ → ℝ) (op : Op) : ℝ := ((op.partials ρ).map fun x => x.2 * τ x.1).sum

lemma hasDerivAt_arg {y x : ℝ → ℝ} {y' x' t : ℝ} (hy : HasDerivAt y y' t) (hx : HasDerivAt x x' t) (h : 0 < x t ∨ y t ≠ 0) :
    HasDerivAt (fun s => Complex.arg ⟨x s, y s⟩)
      (([(0, x t / (y t * y t + x t * x t) * y'), (1, -y t / (y t * y t + x t * x t) * x')] : List (ℕ × ℝ)).map Prod.snd).sum t := by
  have hz : HasDerivAt (fun s => (⟨x s, y s⟩ : ℂ)) ⟨x', y'⟩ t := by
    have := hx.ofReal_comp.add (hy.ofReal_comp.mul_const Complex.I)
    refine (this.congr_of_eventuallyEq ?_).congr_deriv ?_
    · refine Filter.Eventually.of_forall fun s => ?_
      apply Complex.ext <;> simp
    · apply Complex.ext <;> simp
  have hs : (⟨x t, y t⟩ : ℂ) ∈ Complex.slitPlane := h
  have hl := hz.clog_real hs
  have him := (Complex.imCLM.hasFDerivAt.comp_hasDerivAt t hl)
  refine (him.congr_of_eventuallyEq ?_).congr_deriv ?_
  · exact Filter.Eventually.of_forall fun s => (Complex.log_im _).symm
  · simp [Complex.div_im, Complex.normSq_apply]
    ring

lemma hasDerivAt_evalR {op : Op} {γ : ℝ → ℕ → ℝ} {τ : ℕ → ℝ} {t : ℝ} (hγ : ∀ i, HasDerivAt (fun s => γ s i) (τ i) t)
    (h : op.Regular (γ t)) : HasDerivAt (fun s => op.evalR (γ s)) (op.tan (γ t) τ) t := by
  cases op with
  | const r => simpa [Op.evalR, Op.tan, Op.partials] using hasDerivAt_const t r
  | add a b => exact ((hγ a).add (hγ b)).congr_deriv (by simp [Op.tan, Op.partials])
  | sub a b => exact ((hγ a).sub (hγ b)).congr_deriv (by simp [Op.tan, Op.partials, sub_eq_add_neg])
  | mul a b =>
    refine ((hγ a).mul (hγ b)).congr_deriv ?_
    simp [Op.tan, Op.partials]; ring
  | div a b =>
    have h' : γ t b ≠ 0 := h
    refine ((hγ a).div (hγ b) h').congr_deriv ?_
    simp [Op.tan, Op.partials]; field_simp; ring
  | neg a => exact ((hγ a).neg).congr_deriv (by simp [Op.tan, Op.partials])
  | sqrt a =>
    have h' : 0 < γ t a := h
    refine ((hγ a).sqrt h'.ne').congr_deriv ?_
    have := Real.sqrt_pos.2 h'
    simp [Op.tan, Op.partials]; field_simp; norm_num; ring
  | abs a =>
    have h' : γ t a ≠ 0 := h
    rcases lt_or_gt_of_ne h' with k | k
    · refine ((hasDerivAt_abs_neg k).comp t (hγ a)).congr_deriv ?_
      simp [Op.tan, Op.partials, k, not_lt.2 k.le]
    · refine ((hasDerivAt_abs_pos k).comp t (hγ a)).congr_deriv ?_
      simp [Op.tan, Op.partials, k]
  | exp a => simpa [Op.evalR, Op.tan, Op.partials] using (hγ a).exp
  | square a =>
    refine ((hγ a).mul (hγ a)).congr_deriv ?_
    simp [Op.tan, Op.partials]; ring
  | powf a p =>
    have h' : 0 < γ t a := h
    refine ((hγ a).rpow_const (Or.inl h'.ne')).congr_deriv ?_
    simp [Op.tan, Op.partials]; ring
  | whereLe c k a b =>
    have h' : γ t c ≠ k := h
    rcases lt_or_gt_of_ne h' with l | l
    · have e : ∀ᶠ s in nhds t, γ s c < k := (hγ c).continuousAt.eventually_lt_const l
      refine ((hγ a).congr_of_eventuallyEq ?_).congr_deriv ?_
      · filter_upwards [e] with s hs
        simp [Op.evalR, hs.le]
      · simp [Op.tan, Op.partials, l.le]
    · have e : ∀ᶠ s in nhds t, k < γ s c := (hγ c).continuousAt.eventually_const_lt l
      refine ((hγ b).congr_of_eventuallyEq ?_).congr_deriv ?_
      · filter_upwards [e] with s hs
        simp [Op.evalR, not_le.2 hs]
      · simp [Op.tan, Op.partials, not_le.2 l]
  | sin a => 
    refine ((hγ a).sin).congr_deriv ?_
    simp [Op.tan, Op.partials]
  | cos a =>
    refine ((hγ a).cos).congr_deriv ?_
    simp [Op.tan, Op.partials]
  | acos a =>
    have h' : -1 < γ t a ∧ γ t a < 1 := h
    refine ((Real.hasDerivAt_arccos h'.1.ne' h'.2.ne).comp t (hγ a)).congr_deriv ?_
    simp [Op.tan, Op.partials, sq]
  | atan2 a b => exact hasDerivAt_arg (hγ a) (hγ b) h
  | max a b =>
    rcases lt_or_gt_of_ne (show γ t a ≠ γ t b from h) with l | l
    · have e : ∀ᶠ s in nhds t, γ s a < γ s b := (hγ a).continuousAt.eventually_lt (hγ b).continuousAt l
      refine ((hγ b).congr_of_eventuallyEq ?_).congr_deriv ?_
      · filter_upwards [e] with s hs
        simp [Op.evalR, hs.le]
      · simp [Op.tan, Op.partials, l.le, not_le.2 l]
    · have e : ∀ᶠ s in nhds t, γ s b < γ s a := (hγ b).continuousAt.eventually_lt (hγ a).continuousAt l
      refine ((hγ a).congr_of_eventuallyEq ?_).congr_deriv ?_
      · filter_upwards [e] with s hs
        simp [Op.evalR, hs.le]
      · simp [Op.tan, Op.partials, l.le, not_le.2 l]
  | prim a f =>
    have h' : DifferentiableAt ℝ f (fun j => γ t (a j)) := h
    have hc : HasDerivAt (fun s => fun j => γ s (a j)) (fun j => τ (a j)) t := hasDerivAt_pi.2 fun j => hγ (a j)
    refine (h'.hasFDerivAt.comp_hasDerivAt t hc).congr_deriv ?_
    have e : ∀ j, deriv (fun s => f (Function.update (fun j => γ t (a j)) j s)) (γ t (a j)) =
        fderiv ℝ f (fun j => γ t (a j)) (Pi.single j 1) := by
      intro j
      have hu : HasDerivAt (fun s => Function.update (fun j => γ t (a j)) j s) (Pi.single j (1 : ℝ)) (γ t (a j)) :=
        hasDerivAt_update _ _ _
      have h'' : HasFDerivAt f (fderiv ℝ f (fun j => γ t (a j))) (Function.update (fun j => γ t (a j)) j (γ t (a j))) := by
        rw [Function.update_eq_self j (fun j => γ t (a j))]; exact h'.hasFDerivAt
      exact (h''.comp_hasDerivAt _ hu).deriv
    have e2 : (fun j => τ (a j)) = ∑ j : Fin 4, τ (a j) • (Pi.single j (1 : ℝ) : Fin 4 → ℝ) := by
      ext i
      simp [Finset.sum_apply, Pi.single_apply]
    rw [e2, map_sum]
    simp only [map_smul, smul_eq_mul, Op.tan, Op.partials, e, List.map_map, Fin.sum_univ_four]
    simp [List.finRange_succ]
    ring

/-! ### The chain rule -/

/-- the real number behind a cotangent -/
def Is (c : Option XR) (r : ℝ) : Prop := c = none ∧ r = 0 ∨ c = some (.fin r)

lemma is_add {ct : Cot} {g : ℕ → ℝ} (h : ∀ i, Is (ct i) (g i)) (i : ℕ) (x : ℝ) :
    ∀ j, Is (ct.add i (.fin x) j) (Function.update g i (g i + x) j) := by
  intro j
  unfold Cot.add
  by_cases e : j = i
  · subst e
    simp only [Function.update_self]
    rcases h j with ⟨a, b⟩ | a
    · right; rw [a, b]; simp
    · right; rw [a]; simp
  · simpa [e] using h j

/-- accumulation over the reals -/
noncomputable def accR (g : ℕ → ℝ) (l : List (ℕ × ℝ)) : ℕ → ℝ := l.foldl (fun c x => Function.update c x.1 (c x.1 + x.2)) g

lemma is_addAll {l : List (ℕ × ℝ)} : ∀ {ct : Cot} {g : ℕ → ℝ}, (∀ i, Is (ct i) (g i)) →
    ∀ j, Is (ct.addAll (l.map fun x => (x.1, .fin x.2)) j) (accR g l j) := by
  induction l with
  | nil => intro ct g h; exact h
  | cons x l ih => intro ct g h; exact ih (is_add h x.1 x.2)

lemma accR_sum (N : ℕ) (τ : ℕ → ℝ) : ∀ (l : List (ℕ × ℝ)) (g : ℕ → ℝ), (∀ x ∈ l, x.1 < N) →
    ∑ i ∈ Finset.range N, accR g l i * τ i = ∑ i ∈ Finset.range N, g i * τ i + (l.map fun x => x.2 * τ x.1).sum := by
  intro l
  induction l with
  | nil => intro g _; simp [accR]
  | cons x l ih =>
    intro g h
    have := ih (Function.update g x.1 (g x.1 + x.2)) fun y hy => h y (List.mem_cons_of_mem _ hy)
    refine this.trans ?_
    have hx : x.1 ∈ Finset.range N := Finset.mem_range.2 (h x List.mem_cons_self)
    rw [List.map_cons, List.sum_cons, ← add_assoc]
    congr 1
    rw [← Finset.add_sum_erase _ _ hx, ← Finset.add_sum_erase _ (fun i => g i * τ i) hx, Function.update_self]
    have : ∀ i ∈ (Finset.range N).erase x.1, Function.update g x.1 (g x.1 + x.2) i * τ i = g i * τ i := by
      intro i hi
      rw [Function.update_of_ne (Finset.ne_of_mem_erase hi)]
    rw [Finset.sum_congr rfl this]
    ring

/-- the variables of a program are below `N` -/
def Below (N : ℕ) (p : Prog) : Prop := ∀ x ∈ p, x.1 < N ∧ ∀ σ : ℕ → ℝ, ∀ y ∈ x.2.partials σ, y.1 < N

/-- **the chain rule**: along a regular program, cotangents are finite and dual to tangents -/
lemma chain (N : ℕ) : ∀ (p : Prog) (γ : ℝ → ℕ → ℝ) (τ : ℕ → ℝ) (t : ℝ) (ct : Cot) (g : ℕ → ℝ), Below N p →
    (∀ i, HasDerivAt (fun s => γ s i) (τ i) t) → Regular (γ t) p → (∀ i, Is (ct i) (g i)) →
    ∃ g' τ' : ℕ → ℝ, (∀ i, Is (back (fun i => .fin (γ t i)) p ct i) (g' i)) ∧
      (∀ o, HasDerivAt (fun s => runR (γ s) p o) (τ' o) t) ∧
      ∑ i ∈ Finset.range N, g' i * τ i = ∑ o ∈ Finset.range N, g o * τ' o := by
  intro p
  induction p with
  | nil => intro γ τ t ct g _ hγ _ hct; exact ⟨g, τ, hct, hγ, rfl⟩
  | cons x p ih =>
    obtain ⟨d, op⟩ := x
    intro γ τ t ct g hb hγ hr hct
    obtain ⟨r1, r2⟩ := hr
    obtain ⟨hd, hop⟩ := hb (d, op) List.mem_cons_self
    have hv := hasDerivAt_evalR hγ r1
    have hγ' : ∀ i, HasDerivAt (fun s => Function.update (γ s) d (op.evalR (γ s)) i)
        (Function.update τ d (op.tan (γ t) τ) i) t := by
      intro i
      by_cases e : i = d
      · subst e; simpa using hv
      · simpa [e] using hγ i
    obtain ⟨g1, τ', h1, h2, h3⟩ := ih (fun s => Function.update (γ s) d (op.evalR (γ s))) _ t ct g
      (fun y hy => hb y (List.mem_cons_of_mem _ hy)) hγ' r2 hct
    have eenv : Function.update (fun i => XR.fin (γ t i)) d (op.eval fun i => .fin (γ t i)) =
        fun i => .fin (Function.update (γ t) d (op.evalR (γ t)) i) := by
      ext i
      rw [eval_fin r1]
      by_cases e : i = d
      · subst e; simp
      · simp [e]
    set ct1 := back (Function.update (fun i => XR.fin (γ t i)) d (op.eval fun i => .fin (γ t i))) p ct with hct1
    have h1' : ∀ i, Is (ct1 i) (g1 i) := by rw [hct1, eenv]; exact h1
    have hz : ∀ i, Is (Function.update ct1 d none i) (Function.update g1 d 0 i) := by
      intro i
      by_cases e : i = d
      · subst e; left; simp
      · simpa [e] using h1' i
    refine ⟨accR (Function.update g1 d 0) ((op.partials (γ t)).map fun x => (x.1, g1 d * x.2)), τ', ?_, h2, ?_⟩
    · intro i
      show Is (pullStep _ d op ct1 i) _
      unfold pullStep
      rcases h1' d with ⟨a, b⟩ | a
      · rw [a, b]
        simp only [zero_mul]
        have : ∀ (l : List (ℕ × ℝ)) (g : ℕ → ℝ), accR g (l.map fun x => (x.1, (0 : ℝ))) = g := by
          intro l
          induction l with
          | nil => intro g; rfl
          | cons x l ih => intro g; simpa [accR] using ih g
        rw [this]
        exact hz i
      · rw [a]
        simp only []
        rw [eval_fin r1, pull_fin r1]
        have := is_addAll (l := (op.partials (γ t)).map fun x => (x.1, g1 d * x.2)) hz i
        simpa [List.map_map, Function.comp_def] using this
    · rw [accR_sum, ← h3]
      · have hx : d ∈ Finset.range N := Finset.mem_range.2 hd
        rw [← Finset.add_sum_erase _ _ hx, ← Finset.add_sum_erase _ (fun i => g1 i * _) hx, Function.update_self,
          Function.update_self]
        have e1 : ∀ i ∈ (Finset.range N).erase d, Function.update g1 d 0 i * τ i =
            g1 i * Function.update τ d (op.tan (γ t) τ) i := by
          intro i hi
          rw [Function.update_of_ne (Finset.ne_of_mem_erase hi), Function.update_of_ne (Finset.ne_of_mem_erase hi)]
        rw [Finset.sum_congr rfl e1, List.map_map]
        have e2 : (List.map ((fun x : ℕ × ℝ => x.2 * τ x.1) ∘ fun x => (x.1, g1 d * x.2)) (op.partials (γ t))).sum =
            g1 d * op.tan (γ t) τ := by
          unfold Op.tan
          rw [← List.sum_map_mul_left]
          congr 1
          apply List.map_congr_left
          intro x _
          simp [mul_assoc]
        rw [e2]
        ring
      · intro y hy
        obtain ⟨z, hz, rfl⟩ := List.mem_map.1 hy
        exact hop _ z hz

lemma exists_below (p : Prog) : ∃ N, Below N p := by
  have hop : ∀ op : Op, ∃ N, ∀ σ : ℕ → ℝ, ∀ y ∈ op.partials σ, y.1 < N := by
    have two : ∀ (op : Op) (a b : ℕ), (∀ σ : ℕ → ℝ, ∃ u v : ℝ, op.partials σ = [(a, u), (b, v)]) →
        ∃ N, ∀ σ : ℕ → ℝ, ∀ y ∈ op.partials σ, y.1 < N := by
      intro op a b h
      refine ⟨a + b + 1, fun σ y hy => ?_⟩
      obtain ⟨u, v, e⟩ := h σ
      rw [e, List.mem_cons, List.mem_singleton] at hy
      rcases hy with rfl | rfl
      · show a < a + b + 1; omega
      · show b < a + b + 1; omega
    intro op
    cases op with
    | const r => exact ⟨0, by simp [Op.partials]⟩
    | add a b => exact two _ _ _ fun σ => ⟨_, _, rfl⟩
    | sub a b => exact two _ _ _ fun σ => ⟨_, _, rfl⟩
    | mul a b => exact two _ _ _ fun σ => ⟨_, _, rfl⟩
    | div a b => exact two _ _ _ fun σ => ⟨_, _, rfl⟩
    | whereLe c k a b => exact two _ _ _ fun σ => ⟨_, _, rfl⟩
    | neg a => exact ⟨a + 1, by simp [Op.partials]⟩
    | sqrt a => exact ⟨a + 1, by simp [Op.partials]⟩
    | abs a => exact ⟨a + 1, by simp [Op.partials]⟩
    | exp a => exact ⟨a + 1, by simp [Op.partials]⟩
    | square a => exact ⟨a + 1, by simp [Op.partials]⟩
    | powf a p => exact ⟨a + 1, by simp [Op.partials]⟩
    | sin a => exact ⟨a + 1, by simp [Op.partials]⟩
    | cos a => exact ⟨a + 1, by simp [Op.partials]⟩
    | acos a => exact ⟨a + 1, by simp [Op.partials]⟩
    | atan2 a b => exact two _ _ _ fun σ => ⟨_, _, rfl⟩
    | max a b => exact two _ _ _ fun σ => ⟨_, _, rfl⟩
    | prim a f =>
      refine ⟨∑ j, a j + 1, ?_⟩
      intro σ y hy
      obtain ⟨j, _, rfl⟩ := List.mem_map.1 hy
      exact Nat.lt_succ_of_le (Finset.single_le_sum (f := a) (fun _ _ => Nat.zero_le _) (Finset.mem_univ j))
  induction p with
  | nil => exact ⟨0, by simp [Below]⟩
  | cons x p ih =>
    obtain ⟨N, hN⟩ := ih
    obtain ⟨K, hK⟩ := hop x.2
    refine ⟨max (max N K) (x.1 + 1), ?_⟩
    intro y hy
    rcases List.mem_cons.1 hy with rfl | hy
    · exact ⟨by omega, fun σ z hz => by have := hK σ z hz; omega⟩
    · obtain ⟨u, v⟩ := hN y hy
      exact ⟨by omega, fun σ z hz => by have := v σ z hz; omega⟩

lemma run_fin : ∀ (p : Prog) {ρ : ℕ → ℝ}, Regular ρ p → run (fun i => .fin (ρ i)) p = fun i => .fin (runR ρ p i) := by
  intro p
  induction p with
  | nil => intro ρ _; rfl
  | cons x p ih =>
    obtain ⟨d, op⟩ := x
    intro ρ h
    have e : Function.update (fun i => XR.fin (ρ i)) d (op.eval fun i => .fin (ρ i)) =
        fun i => .fin (Function.update ρ d (op.evalR ρ) i) := by
      ext i
      rw [eval_fin h.1]
      by_cases k : i = d
      · subst k; simp
      · simp [k]
    show run (Function.update _ d _) p = _
    rw [e]
    exact ih h.2

/-- reverse mode returns the derivative of a regular program -/
lemma grad_correct {p : Prog} {ρ : ℕ → ℝ} (h : Regular ρ p) (o i : ℕ) :
    ∃ g : ℝ, grad p (fun i => .fin (ρ i)) o i = .fin g ∧
      HasDerivAt (fun t => runR (Function.update ρ i t) p o) g (ρ i) := by
  obtain ⟨N, hN⟩ := exists_below p
  have hN' : Below (max N (max (o + 1) (i + 1))) p := fun x hx =>
    ⟨by have := (hN x hx).1; omega, fun σ y hy => by have := (hN x hx).2 σ y hy; omega⟩
  generalize hM : max N (max (o + 1) (i + 1)) = M at hN'
  have e0 : Function.update ρ i (ρ i) = ρ := Function.update_eq_self i ρ
  obtain ⟨g', τ', h1, h2, h3⟩ := chain M p (fun t => Function.update ρ i t) (Pi.single i 1) (ρ i) (unit o) (Pi.single o 1) hN'
    (fun j => by
      by_cases e : j = i
      · subst e; simpa using hasDerivAt_id' (ρ j)
      · simpa [e] using hasDerivAt_const (ρ i) (ρ j))
    (by rw [e0]; exact h)
    (fun j => by
      unfold unit
      by_cases e : j = o
      · subst e; right; simp
      · left; simp [e])
  rw [e0] at h1
  have s1 : ∑ j ∈ Finset.range M, g' j * (Pi.single i (1 : ℝ) : ℕ → ℝ) j = g' i := by
    rw [Finset.sum_eq_single i]
    · simp
    · intro b _ hb; simp [hb]
    · intro hn; exact absurd (Finset.mem_range.2 (by omega)) hn
  have s2 : ∑ j ∈ Finset.range M, (Pi.single o (1 : ℝ) : ℕ → ℝ) j * τ' j = τ' o := by
    rw [Finset.sum_eq_single o]
    · simp
    · intro b _ hb; simp [hb]
    · intro hn; exact absurd (Finset.mem_range.2 (by omega)) hn
  rw [s1, s2] at h3
  refine ⟨g' i, ?_, h3 ▸ h2 o⟩
  unfold grad
  rcases h1 i with ⟨a, b⟩ | a
  · rw [a, b]; rfl
  · rw [a]; rfl

/-! ### Propagation of liveness and of nan -/

lemma back_append (p q : Prog) : ∀ (env : ℕ → XR) (ct : Cot), back env (p ++ q) ct = back env p (back (run env p) q ct) := by
  induction p with
  | nil => intro env ct; rfl
  | cons x p ih => intro env ct; simp only [List.cons_append, back, run]; rw [ih]

lemma run_append (p q : Prog) : ∀ env : ℕ → XR, run env (p ++ q) = run (run env p) q := by
  induction p with
  | nil => intro env; rfl
  | cons x p ih => intro env; simp only [List.cons_append, run]; rw [ih]

/-- the arguments to which an operation sends its cotangent -/
def Op.args : Op → List ℕ
  | .const _ => []
  | .add a b => [a, b]
  | .sub a b => [a, b]
  | .mul a b => [a, b]
  | .div a b => [a, b]
  | .neg a => [a]
  | .sqrt a => [a]
  | .abs a => [a]
  | .exp a => [a]
  | .square a => [a]
  | .powf a _ => [a]
  | .whereLe _ _ a b => [a, b]
  | .sin a => [a]
  | .cos a => [a]
  | .acos a => [a]
  | .atan2 a b => [a, b]
  | .max a b => [a, b]
  | .prim a _ => [a 0, a 1, a 2, a 3]

/-- the arguments to which an operation certainly sends nan when its own cotangent is nan -/
def Op.nanArgs : Op → List ℕ
  | .whereLe _ _ _ _ => []
  | op => op.args

lemma pull_args (op : Op) (env : ℕ → XR) (ans g : XR) : (op.pull env ans g).map Prod.fst = op.args := by
  cases op <;> simp [Op.pull, Op.args, List.finRange_succ]

lemma pull_nan (op : Op) (env : ℕ → XR) (ans : XR) (i : ℕ) (h : i ∈ op.nanArgs) : (i, XR.nan) ∈ op.pull env ans .nan := by
  have e : -XR.nan = XR.nan := rfl
  cases op <;> simp_all [Op.pull, Op.nanArgs, Op.args, List.finRange_succ]

/-- a cotangent which is not a symbolic zero -/
def Live (c : Option XR) : Prop := c ≠ none

lemma add_live (ct : Cot) (i j : ℕ) (x : XR) (h : Live (ct j) ∨ j = i) : Live (ct.add i x j) := by
  unfold Cot.add Live
  by_cases e : j = i
  · subst e; simp
  · simpa [e, Live] using h

lemma addAll_live (l : List (ℕ × XR)) : ∀ (ct : Cot) (j : ℕ), (Live (ct j) ∨ j ∈ l.map Prod.fst) → Live (ct.addAll l j) := by
  induction l with
  | nil => intro ct j h; simpa [Cot.addAll] using h
  | cons x l ih =>
    intro ct j h
    refine ih (ct.add x.1 x.2) j ?_
    rw [List.map_cons, List.mem_cons] at h
    rcases h with h | h | h
    · exact Or.inl (add_live _ _ _ _ (Or.inl h))
    · exact Or.inl (add_live _ _ _ _ (Or.inr h))
    · exact Or.inr h

lemma add_nan (ct : Cot) (i j : ℕ) (x : XR) (h : ct j = some .nan ∨ j = i ∧ x = .nan) : ct.add i x j = some .nan := by
  unfold Cot.add
  by_cases e : j = i
  · subst e
    rw [Function.update_self]
    rcases h with h | ⟨_, rfl⟩
    · rw [h]; simp
    · cases ct j <;> simp
  · simpa [e] using h

lemma addAll_nan (l : List (ℕ × XR)) : ∀ (ct : Cot) (j : ℕ), (ct j = some .nan ∨ (j, XR.nan) ∈ l) → ct.addAll l j = some .nan := by
  induction l with
  | nil => intro ct j h; simpa [Cot.addAll] using h
  | cons x l ih =>
    intro ct j h
    refine ih (ct.add x.1 x.2) j ?_
    rw [List.mem_cons] at h
    rcases h with h | h | h
    · exact Or.inl (add_nan _ _ _ _ (Or.inl h))
    · exact Or.inl (add_nan _ _ _ _ (Or.inr ⟨congrArg Prod.fst h, (congrArg Prod.snd h).symm⟩))
    · exact Or.inr h

/-- the variables that certainly have a cotangent before the program, given those after it -/
def liveB : Prog → (ℕ → Bool) → ℕ → Bool
  | [], S => S
  | (d, op) :: p, S => fun i => (liveB p S i && i != d) || (liveB p S d && op.args.contains i)

/-- the variables that certainly have cotangent nan before the program, given those after it -/
def nanB : Prog → (ℕ → Bool) → ℕ → Bool
  | [], S => S
  | (d, op) :: p, S => fun i => (nanB p S i && i != d) || (nanB p S d && op.nanArgs.contains i)

lemma back_live (S : ℕ → Bool) : ∀ (p : Prog) (env : ℕ → XR) (ct : Cot), (∀ i, S i = true → Live (ct i)) →
    ∀ i, liveB p S i = true → Live (back env p ct i) := by
  intro p
  induction p with
  | nil => intro env ct h; exact h
  | cons x p ih =>
    obtain ⟨d, op⟩ := x
    intro env ct h i hi
    have ih' := ih (Function.update env d (op.eval env)) ct h
    show Live (pullStep _ _ _ _ i)
    generalize back (Function.update env d (op.eval env)) p ct = c at ih' ⊢
    unfold pullStep
    simp only [liveB, Bool.or_eq_true, Bool.and_eq_true, bne_iff_ne, ne_eq, List.contains_iff_mem] at hi
    cases hc : c d with
    | none =>
      rcases hi with ⟨a, b⟩ | ⟨a, _⟩
      · simpa [b] using ih' i a
      · exact absurd hc (ih' d a)
    | some g =>
      simp only []
      refine addAll_live _ _ _ ?_
      rcases hi with ⟨a, b⟩ | ⟨_, b⟩
      · left; simpa [b] using ih' i a
      · right; rw [pull_args]; exact b

lemma back_nan (S : ℕ → Bool) : ∀ (p : Prog) (env : ℕ → XR) (ct : Cot), (∀ i, S i = true → ct i = some .nan) →
    ∀ i, nanB p S i = true → back env p ct i = some .nan := by
  intro p
  induction p with
  | nil => intro env ct h; exact h
  | cons x p ih =>
    obtain ⟨d, op⟩ := x
    intro env ct h i hi
    have ih' := ih (Function.update env d (op.eval env)) ct h
    show pullStep _ _ _ _ i = _
    generalize back (Function.update env d (op.eval env)) p ct = c at ih' ⊢
    unfold pullStep
    simp only [nanB, Bool.or_eq_true, Bool.and_eq_true, bne_iff_ne, ne_eq, List.contains_iff_mem] at hi
    cases hc : c d with
    | none =>
      rcases hi with ⟨a, b⟩ | ⟨a, _⟩
      · simpa [b] using ih' i a
      · rw [ih' d a] at hc; exact absurd hc (by simp)
    | some g =>
      simp only []
      refine addAll_nan _ _ _ ?_
      rcases hi with ⟨a, b⟩ | ⟨a, b⟩
      · left; simpa [b] using ih' i a
      · right
        have : g = .nan := by have := ih' d a; rw [hc] at this; exact Option.some.inj this
        rw [this]
        exact pull_nan _ _ _ _ b

/-- the variables that certainly have no cotangent before the program, given those after it -/
def deadB : Prog → (ℕ → Bool) → ℕ → Bool
  | [], S => S
  | (d, op) :: p, S => fun i => (i == d || deadB p S i) && (deadB p S d || !op.args.contains i)

lemma addAll_other (l : List (ℕ × XR)) : ∀ (ct : Cot) (j : ℕ), j ∉ l.map Prod.fst → ct.addAll l j = ct j := by
  induction l with
  | nil => intro ct j _; rfl
  | cons x l ih =>
    intro ct j h
    rw [List.map_cons, List.mem_cons, not_or] at h
    refine (ih (ct.add x.1 x.2) j h.2).trans ?_
    simp [Cot.add, h.1]

lemma back_dead (S : ℕ → Bool) : ∀ (p : Prog) (env : ℕ → XR) (ct : Cot), (∀ i, S i = true → ct i = none) →
    ∀ i, deadB p S i = true → back env p ct i = none := by
  intro p
  induction p with
  | nil => intro env ct h; exact h
  | cons x p ih =>
    obtain ⟨d, op⟩ := x
    intro env ct h i hi
    have ih' := ih (Function.update env d (op.eval env)) ct h
    show pullStep _ _ _ _ i = _
    generalize back (Function.update env d (op.eval env)) p ct = c at ih' ⊢
    unfold pullStep
    simp only [deadB, Bool.or_eq_true, Bool.and_eq_true, beq_iff_eq, Bool.not_eq_true', List.contains_eq_mem,
      decide_eq_false_iff_not] at hi
    have hu : Function.update c d none i = none := by
      by_cases e : i = d
      · subst e; simp
      · simpa [e] using ih' i (hi.1.resolve_left e)
    cases hc : c d with
    | none => exact hu
    | some g =>
      simp only []
      rcases hi.2 with a | a
      · rw [ih' d a] at hc; exact absurd hc (by simp)
      · rw [addAll_other _ _ _ (by rw [pull_args]; exact a)]
        exact hu

/-! ### Programs that do not read a variable -/

/-- the variables an operation reads -/
def Op.reads : Op → List ℕ
  | .whereLe c _ a b => [c, a, b]
  | op => op.args

lemma eval_congr {env env' : ℕ → XR} (op : Op) (h : ∀ i ∈ op.reads, env i = env' i) : op.eval env = op.eval env' := by
  cases op with
  | prim a f =>
    have : ∀ j, env (a j) = env' (a j) := fun j => h _ (by fin_cases j <;> simp [Op.reads, Op.args])
    simp only [Op.eval, this]
  | _ => simp_all [Op.eval, Op.reads, Op.args]

lemma pull_congr {env env' : ℕ → XR} (op : Op) (ans g : XR) (h : ∀ i ∈ op.reads, env i = env' i) :
    op.pull env ans g = op.pull env' ans g := by
  cases op with
  | prim a f =>
    have : ∀ j, env (a j) = env' (a j) := fun j => h _ (by fin_cases j <;> simp [Op.reads, Op.args])
    simp only [Op.pull, this]
  | _ => simp_all [Op.pull, Op.reads, Op.args]

/-- the program reads nothing but the variables `U` and what it has assigned itself -/
def readsOnly : Prog → (ℕ → Bool) → Bool
  | [], _ => true
  | (d, op) :: p, U => op.reads.all U && readsOnly p (fun i => U i || i == d)

/-- the variables known after the program -/
def known : Prog → (ℕ → Bool) → ℕ → Bool
  | [], U => U
  | (d, _) :: p, U => known p (fun i => U i || i == d)

lemma congr_step {env env' : ℕ → XR} {U : ℕ → Bool} (h : ∀ i, U i = true → env i = env' i) {d : ℕ} {op : Op}
    (hr : op.reads.all U = true) : ∀ i, (U i || i == d) = true →
      Function.update env d (op.eval env) i = Function.update env' d (op.eval env') i := by
  intro i hi
  have := eval_congr op fun i k => h i (List.all_eq_true.1 hr i k)
  by_cases e : i = d
  · subst e; simpa using this
  · simp [e] at hi
    simpa [e] using h i hi

lemma run_congr : ∀ (p : Prog) {env env' : ℕ → XR} {U : ℕ → Bool}, (∀ i, U i = true → env i = env' i) →
    readsOnly p U = true → ∀ i, known p U i = true → run env p i = run env' p i := by
  intro p
  induction p with
  | nil => intro env env' U h _; exact h
  | cons x p ih =>
    obtain ⟨d, op⟩ := x
    intro env env' U h hr
    simp only [readsOnly, Bool.and_eq_true] at hr
    exact ih (congr_step h hr.1) hr.2

lemma back_congr : ∀ (p : Prog) {env env' : ℕ → XR} {U : ℕ → Bool}, (∀ i, U i = true → env i = env' i) →
    readsOnly p U = true → ∀ ct, back env p ct = back env' p ct := by
  intro p
  induction p with
  | nil => intro env env' U _ _ ct; rfl
  | cons x p ih =>
    obtain ⟨d, op⟩ := x
    intro env env' U h hr ct
    simp only [readsOnly, Bool.and_eq_true] at hr
    have hop : ∀ i ∈ op.reads, env i = env' i := fun i k => h i (List.all_eq_true.1 hr.1 i k)
    show pullStep _ _ _ _ = pullStep _ _ _ _
    rw [ih (congr_step h hr.1) hr.2 ct]
    unfold pullStep
    rw [eval_congr op hop]
    split
    · rfl
    · rw [pull_congr op _ _ hop]

/-- the program neither assigns the variable nor sends a cotangent to it -/
def ignores : Prog → ℕ → Bool
  | [], _ => true
  | (d, op) :: p, i => i != d && !op.args.contains i && ignores p i

lemma back_ignores (i : ℕ) : ∀ (p : Prog) (env : ℕ → XR) (ct : Cot), ignores p i = true → back env p ct i = ct i := by
  intro p
  induction p with
  | nil => intro env ct _; rfl
  | cons x p ih =>
    obtain ⟨d, op⟩ := x
    intro env ct h
    simp only [ignores, Bool.and_eq_true, bne_iff_ne, ne_eq, Bool.not_eq_true', List.contains_eq_mem,
      decide_eq_false_iff_not] at h
    have ih' := ih (Function.update env d (op.eval env)) ct h.2
    show pullStep _ _ _ _ i = _
    generalize back (Function.update env d (op.eval env)) p ct = c at ih' ⊢
    rw [← ih']
    unfold pullStep
    cases c d with
    | none => simp [h.1.1]
    | some g =>
      show Cot.addAll _ _ i = _
      rw [addAll_other _ _ _ (by rw [pull_args]; exact h.1.2)]
      simp [h.1.1]

end AD
end Ripple

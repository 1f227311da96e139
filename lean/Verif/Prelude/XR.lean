/-
  Extended reals with the exceptional values of IEEE-754 floats.

  This is the "exceptional value" layer of the trusted base: finite values are exact reals (rounding is not
  modelled), the only zero is `+0`.
-/
import Mathlib.Analysis.SpecialFunctions.Pow.Real
import Mathlib.Data.Complex.Basic

namespace Ripple

/-- Idealised float: an exact real, or one of the IEEE exceptional values. -/
inductive XR where
  | fin (r : ℝ)
  | pinf
  | ninf
  | nan

namespace XR

noncomputable section

def neg : XR → XR
  | fin a => fin (-a)
  | pinf => ninf
  | ninf => pinf
  | nan => nan

def add : XR → XR → XR
  | nan, _ => nan
  | _, nan => nan
  | fin a, fin b => fin (a + b)
  | fin _, pinf => pinf
  | fin _, ninf => ninf
  | pinf, fin _ => pinf
  | ninf, fin _ => ninf
  | pinf, pinf => pinf
  | ninf, ninf => ninf
  | pinf, ninf => nan
  | ninf, pinf => nan

def sub (x y : XR) : XR := add x (neg y)

/-- `inf * r` by the sign of `r` (`0 * inf = nan`). -/
def infMul (r : ℝ) : XR := if r = 0 then nan else if 0 < r then pinf else ninf

def mul : XR → XR → XR
  | nan, _ => nan
  | _, nan => nan
  | fin a, fin b => fin (a * b)
  | fin a, pinf => infMul a
  | pinf, fin a => infMul a
  | fin a, ninf => infMul (-a)
  | ninf, fin a => infMul (-a)
  | pinf, pinf => pinf
  | ninf, ninf => pinf
  | pinf, ninf => ninf
  | ninf, pinf => ninf

/-- Division; the zero denominator is `+0`. -/
def div : XR → XR → XR
  | nan, _ => nan
  | _, nan => nan
  | fin a, fin b =>
      if b = 0 then (if a = 0 then nan else if 0 < a then pinf else ninf) else fin (a / b)
  | fin _, pinf => fin 0
  | fin _, ninf => fin 0
  | pinf, fin b => if b < 0 then ninf else pinf
  | ninf, fin b => if b < 0 then pinf else ninf
  | pinf, pinf => nan
  | pinf, ninf => nan
  | ninf, pinf => nan
  | ninf, ninf => nan

def sqrt : XR → XR
  | fin a => if a < 0 then nan else fin (Real.sqrt a)
  | pinf => pinf
  | ninf => nan
  | nan => nan

/-- `x ** p` for a positive exponent `p` which is not an integer (C `pow`). -/
def powFrac (x : XR) (p : ℝ) : XR :=
  match x with
  | fin a => if a < 0 then nan else fin (a ^ p)
  | pinf => pinf
  | ninf => pinf
  | nan => nan

/-- Comparison `x < y`; false as soon as one side is nan. -/
def lt : XR → XR → Prop
  | nan, _ => False
  | _, nan => False
  | fin a, fin b => a < b
  | ninf, fin _ => True
  | ninf, pinf => True
  | fin _, pinf => True
  | _, _ => False

def exp : XR → XR
  | fin a => fin (Real.exp a)
  | pinf => pinf
  | ninf => fin 0
  | nan => nan

/-- left-to-right sum of an array of floats -/
def sum : List XR → XR
  | [] => fin 0
  | x :: xs => add x (sum xs)

def isFin : XR → Prop
  | fin _ => True
  | _ => False

instance (x : XR) : Decidable x.isFin := by
  cases x <;> unfold isFin <;> infer_instance

instance : Neg XR := ⟨neg⟩
instance : Add XR := ⟨add⟩
instance : Sub XR := ⟨sub⟩
instance : Mul XR := ⟨mul⟩
instance : Div XR := ⟨div⟩

@[simp] lemma neg_fin (a : ℝ) : -(fin a) = fin (-a) := rfl
@[simp] lemma add_fin (a b : ℝ) : fin a + fin b = fin (a + b) := rfl
@[simp] lemma sub_fin (a b : ℝ) : fin a - fin b = fin (a - b) := by
  show fin (a + -b) = _; rw [sub_eq_add_neg]
@[simp] lemma mul_fin (a b : ℝ) : fin a * fin b = fin (a * b) := rfl
lemma div_fin (a : ℝ) {b : ℝ} (hb : b ≠ 0) : fin a / fin b = fin (a / b) := by
  show div _ _ = _; simp [div, hb]
lemma div_fin_zero_pos {a : ℝ} (ha : 0 < a) : fin a / fin 0 = pinf := by
  show div _ _ = _; simp [div, ha, ha.ne']
lemma div_fin_zero_neg {a : ℝ} (ha : a < 0) : fin a / fin 0 = ninf := by
  show div _ _ = _; simp [div, ha.ne, not_lt.2 ha.le]
@[simp] lemma div_zero_zero : fin 0 / fin 0 = nan := by
  show div _ _ = _; simp [div]
@[simp] lemma div_fin_pinf (a : ℝ) : fin a / pinf = fin 0 := rfl
@[simp] lemma nan_add (x : XR) : nan + x = nan := by cases x <;> rfl
@[simp] lemma add_nan (x : XR) : x + nan = nan := by cases x <;> rfl
@[simp] lemma nan_sub (x : XR) : nan - x = nan := by cases x <;> rfl
@[simp] lemma sub_nan (x : XR) : x - nan = nan := by cases x <;> rfl
@[simp] lemma nan_mul (x : XR) : nan * x = nan := by cases x <;> rfl
@[simp] lemma mul_nan (x : XR) : x * nan = nan := by cases x <;> rfl
@[simp] lemma nan_div (x : XR) : nan / x = nan := by cases x <;> rfl
@[simp] lemma div_nan (x : XR) : x / nan = nan := by cases x <;> rfl
@[simp] lemma sqrt_nan : sqrt nan = nan := rfl
lemma sqrt_fin {a : ℝ} (h : 0 ≤ a) : sqrt (fin a) = fin (Real.sqrt a) := by
  simp [sqrt, not_lt.2 h]
lemma sqrt_fin_neg {a : ℝ} (h : a < 0) : sqrt (fin a) = nan := by simp [sqrt, h]
@[simp] lemma pinf_sub_pinf : pinf - pinf = nan := rfl
@[simp] lemma isFin_fin (a : ℝ) : (fin a).isFin := trivial
@[simp] lemma not_isFin_nan : ¬ (nan).isFin := id
@[simp] lemma not_isFin_pinf : ¬ (pinf).isFin := id

lemma sum_fin (l : List ℝ) : sum (l.map fin) = fin l.sum := by
  induction l with
  | nil => rfl
  | cons a l ih => simp only [List.map_cons, sum, ih, List.sum_cons]; rfl

lemma sum_nan {l : List XR} (h : nan ∈ l) : sum l = nan := by
  induction l with
  | nil => cases h
  | cons a l ih =>
    rcases List.mem_cons.1 h with h | h
    · subst h; exact nan_add _
    · show add a (sum l) = nan; rw [ih h]; exact add_nan _

end
end XR
end Ripple

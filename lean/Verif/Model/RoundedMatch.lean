/-
  The overlap and the match of src/ripplegw/__init__.py in floating-point arithmetic.

  A complex float is a pair of floats.  Library functions whose algorithm is not fixed (modulus, complex division, exponential,
  inverse Fourier transform, order of summation) are parameters with what is assumed of them.
-/
import Verif.Prelude.Fp
import Mathlib.Data.Fin.Tuple.Basic
import Mathlib.Data.List.Perm.Basic

namespace Ripple
namespace Fp

noncomputable section
open Classical

/-- Results of adding the entries of an array in some order, with any bracketing. -/
inductive IsSum (F : Fmt) : List XR → XR → Prop
  | nil : IsSum F [] (.fin 0)
  | one (x : XR) : IsSum F [x] x
  | add {l l1 l2 : List XR} {a b : XR} : l.Perm (l1 ++ l2) → IsSum F l1 a → IsSum F l2 b → IsSum F l (F.add a b)

/-- both parts finite -/
def CFin (z : XR × XR) : Prop := z.1.isFin ∧ z.2.isFin

/-- zero or nan -/
def ZN (x : XR) : Prop := x = .fin 0 ∨ x = .nan

/-- The library functions. -/
structure Lib (F : Fmt) where
  /-- `jnp.sum` of floats -/
  sum : List XR → XR
  /-- `jnp.abs` of a complex number -/
  cabs : XR × XR → XR
  /-- division of a complex number by a float -/
  cdiv : XR × XR → XR → XR × XR
  /-- `jnp.exp(1j * 2 * pi * f * t)` -/
  cis : ℝ → ℝ → ℝ × ℝ
  /-- `jnp.fft.ifft` -/
  ifft : {N : ℕ} → (Fin N → XR × XR) → Fin N → XR × XR
  sum_spec : ∀ l, IsSum F l (sum l)
  /-- a modulus is less than twice the larger of the two parts -/
  cabs_small : ∀ a b t, F.rd a = a → F.rd b = b → |a| ≤ t → |b| ≤ t → 4 * t < 2 ^ F.emax → ∃ r, cabs (.fin a, .fin b) = .fin r ∧ 0 ≤ r ∧ r ≤ 2 * t
  cabs_nonfin : ∀ z, ¬ CFin z → ¬ (cabs z).isFin
  cabs_ninf : ∀ z, cabs z ≠ .ninf
  cabs_ZN : ∀ a b, ZN a → ZN b → ZN (cabs (a, b))
  /-- division by zero gives a number that is not finite, -/
  cdiv_zero : ∀ z, ¬ CFin (cdiv z (.fin 0))
  /-- and zero divided by anything is zero or nan in both parts -/
  zero_cdiv : ∀ s, ZN (cdiv (.fin 0, .fin 0) s).1 ∧ ZN (cdiv (.fin 0, .fin 0) s).2
  /-- every output mixes all inputs -/
  ifft_nonfin : ∀ {N : ℕ} (x : Fin N → XR × XR), (∃ i, ¬ CFin (x i)) → ∀ k, ¬ CFin (ifft x k)
  ifft_ZN : ∀ {N : ℕ} (x : Fin N → XR × XR), (∀ i, ZN (x i).1 ∧ ZN (x i).2) → ∀ k, ZN (ifft x k).1 ∧ ZN (ifft x k).2

variable (F : Fmt) (lib : Lib F)

/-- product of complex numbers -/
def cmul (x y : XR × XR) : XR × XR :=
  (F.sub (F.mul x.1 y.1) (F.mul x.2 y.2), F.add (F.mul x.1 y.2) (F.mul x.2 y.1))

/-- complex conjugate -/
def conj (x : XR × XR) : XR × XR := (x.1, -x.2)

/-- `jnp.sqrt(jnp.sum(jnp.abs(hs) ** 2 / Sns))`. src/ripplegw/__init__.py:395-396 and 466-467. -/
def noiseNorm {n : ℕ} (Sns : Fin n → XR) (hs : Fin n → XR × XR) : XR :=
  F.sqrt (lib.sum (List.ofFn fun i => F.div (F.mul (lib.cabs (hs i)) (lib.cabs (hs i))) (Sns i)))

/-- `get_phase_maximized_inner_product_arr` in rounded arithmetic. src/ripplegw/__init__.py:375-401. -/
def get_phase_maximized_inner_product_arr {n : ℕ} (del_t : ℝ) (fs : Fin n → ℝ) (Sns : Fin n → XR)
    (h1s h2s : Fin n → XR × XR) : XR :=
  let norm1 := noiseNorm F lib Sns h1s
  let norm2 := noiseNorm F lib Sns h2s
  let term := fun i =>
    lib.cdiv (cmul F (cmul F (conj (h1s i)) (h2s i)) (.fin (lib.cis (fs i) del_t).1, .fin (lib.cis (fs i) del_t).2)) (Sns i)
  let integral := lib.cabs (lib.sum (List.ofFn fun i => (term i).1), lib.sum (List.ofFn fun i => (term i).2))
  F.div integral (F.mul norm1 norm2)

/-- the larger of two floats, nan if one is nan -/
def fmax : XR → XR → XR
  | .nan, _ => .nan
  | _, .nan => .nan
  | x, y => if XR.lt x y then y else x

/-- `.max()` of a non-empty array -/
def maxOf : List XR → XR
  | [] => .nan
  | [x] => x
  | x :: y :: l => fmax x (maxOf (y :: l))

/-- `get_match_arr` in rounded arithmetic. src/ripplegw/__init__.py:445-473.  The pads are zeros. -/
def get_match_arr (a b : ℕ) {n : ℕ} (Sns : Fin n → XR) (h1s h2s : Fin n → XR × XR) : XR :=
  let norm1 := noiseNorm F lib Sns h1s
  let norm2 := noiseNorm F lib Sns h2s
  let integrand_padded : Fin (a + n + b) → XR × XR :=
    Fin.append (Fin.append (fun _ => (.fin 0, .fin 0)) (fun i => lib.cdiv (cmul F (conj (h1s i)) (h2s i)) (Sns i)))
      (fun _ => (.fin 0, .fin 0))
  let N : XR := .fin ((a + n + b : ℕ) : ℝ)
  let moduli := List.ofFn fun k => lib.cabs (F.mul N (lib.ifft integrand_padded k).1, F.mul N (lib.ifft integrand_padded k).2)
  F.div (maxOf moduli) (F.mul norm1 norm2)

end
end Fp
end Ripple

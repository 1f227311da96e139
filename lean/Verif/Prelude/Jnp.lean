/-
  The numpy / JAX primitives used by the modelled code (part of the trusted reading of the source).
-/
import Verif.Prelude.XR
import Mathlib.Algebra.Order.Floor.Defs
import Mathlib.Algebra.Order.Floor.Ring
import Mathlib.Analysis.SpecialFunctions.Complex.Circle

namespace Ripple

/-- Python exceptions that the modelled code can raise. -/
inductive PyErr where
  | valueError
  | unboundLocalError
  | typeError
  | indexError
  deriving DecidableEq

namespace Jnp
noncomputable section

/-- `jnp.heaviside(x, h0)` -/
def heaviside (x h0 : ℝ) : ℝ := if x < 0 then 0 else if x = 0 then h0 else 1

/-- float → int conversion `astype(int)`: truncation towards zero -/
def trunc (x : ℝ) : ℤ := if 0 ≤ x then ⌊x⌋ else ⌈x⌉

/-- `x % y` for floats (`y ≠ 0`): result has the sign of `y` -/
def fmod (x y : ℝ) : ℝ := x - ⌊x / y⌋ * y

/-- element test of `jnp.allclose(a, b)` with default tolerances -/
def isclose (a b : ℝ) : Prop := |a - b| ≤ 1e-8 + 1e-5 * |b|

/-- `jnp.diff` -/
def diff : List ℝ → List ℝ
  | a :: b :: l => (b - a) :: diff (b :: l)
  | _ => []

/-- `jnp.zeros(n)`: fails for negative n -/
def zeros (n : ℤ) : Except PyErr (List ℝ) :=
  if n < 0 then .error .typeError else .ok (List.replicate n.toNat 0)

/-- JAX array indexing `a[i]` with a static Python integer: negative indices wrap once,
    out-of-range indices are clamped to the nearest valid index (no IndexError for traced arrays). -/
def index {α : Type} [Inhabited α] (a : List α) (i : ℤ) : α :=
  let j := if i < 0 then i + a.length else i
  let j := min (max j 0) (a.length - 1)
  a.getD j.toNat default

/-- `jnp.argmin`: index of the first minimal element -/
def argmin : List ℝ → ℕ
  | [] => 0
  | [_] => 0
  | a :: b :: l =>
      let k := argmin (b :: l)
      if a ≤ (b :: l).getD k 0 then 0 else k + 1

/-- `jnp.cbrt` (real cube root, odd) -/
def cbrt (x : ℝ) : ℝ := if 0 ≤ x then x ^ ((1 : ℝ) / 3) else -((-x) ^ ((1 : ℝ) / 3))

/-- `jnp.searchsorted(xp, x, side='right')` on a sorted array: number of entries `≤ x` -/
def searchsortedRight (xp : List ℝ) (x : ℝ) : ℕ := xp.countP fun a => decide (a ≤ x)

/-- `jnp.interp(x, xp, fp)` (default `left`/`right`) as implemented in JAX:
    `i = clip(searchsorted(xp,x,'right'),1,len(xp)-1)`, linear formula on `[xp[i-1],xp[i]]`
    (guarded when `|dx| ≤ eps`), end values outside. `eps` is `np.spacing(np.finfo(dtype).eps)`. -/
def interp (eps x : ℝ) (xp fp : List ℝ) : ℝ :=
  let n := xp.length
  let i := min (max (searchsortedRight xp x) 1) (n - 1)
  let df := fp.getD i 0 - fp.getD (i - 1) 0
  let dx := xp.getD i 0 - xp.getD (i - 1) 0
  let delta := x - xp.getD (i - 1) 0
  let f := if |dx| ≤ eps then fp.getD (i - 1) 0 else fp.getD (i - 1) 0 + delta / dx * df
  let f := if x < xp.getD 0 0 then fp.getD 0 0 else f
  if xp.getD (n - 1) 0 < x then fp.getD (n - 1) 0 else f

/-- `jnp.interp(x, xp, fp, left=left, right=right)` when table values may be inf/nan. -/
def interpX (eps x : ℝ) (xp : List ℝ) (fp : List XR) (left right : XR) : XR :=
  let n := xp.length
  let i := min (max (searchsortedRight xp x) 1) (n - 1)
  let df := fp.getD i .nan - fp.getD (i - 1) .nan
  let dx := xp.getD i 0 - xp.getD (i - 1) 0
  let delta := x - xp.getD (i - 1) 0
  let f := if |dx| ≤ eps then fp.getD (i - 1) .nan else fp.getD (i - 1) .nan + XR.fin (delta / dx) * df
  let f := if x < xp.getD 0 0 then left else f
  if xp.getD (n - 1) 0 < x then right else f

/-- complex array entry divided by a real float; `none` stands for a non-finite (inf/nan) complex value -/
def cdivX (z : ℂ) : XR → Option ℂ
  | .fin r => if r = 0 then none else some (z / (r : ℂ))
  | .pinf => some 0
  | .ninf => some 0
  | .nan => none

/-- sum of an array of possibly non-finite complex numbers -/
def csumX {n : ℕ} (v : Fin n → Option ℂ) : Option ℂ :=
  if ∀ i, (v i).isSome then some (∑ i, (v i).getD 0) else none

/-- modulus of a possibly non-finite complex number.  Simplification: a non-finite complex number is mapped to
    nan (it could also be inf; in the modelled code the value is then divided by inf or nan). -/
def cabsX : Option ℂ → XR
  | none => .nan
  | some z => .fin ‖z‖

/-- `jnp.fft.ifft` of a finite array: `(1/N) Σ_m x_m exp(2πi k m / N)` -/
def ifft {N : ℕ} (x : Fin N → ℂ) (k : Fin N) : ℂ :=
  1 / (N : ℂ) * ∑ m : Fin N, x m * Complex.exp (2 * Real.pi * Complex.I * (k : ℕ) * (m : ℕ) / (N : ℂ))

/-- `ifft` of an array that may contain a non-finite entry: every output mixes all inputs -/
def ifftX {N : ℕ} (x : Fin N → Option ℂ) (k : Fin N) : Option ℂ :=
  if ∀ i, (x i).isSome then some (ifft (fun i => (x i).getD 0) k) else none

/-- `.max()` of an array of floats, nan if an entry is nan (numpy/JAX convention).
    Simplification: entries are finite or nan here; the empty array (ValueError in JAX) is given the value 0. -/
def maxX {N : ℕ} (v : Fin N → XR) : XR :=
  if ∀ i, (v i).isFin then .fin (⨆ i, match v i with | .fin r => r | _ => 0) else .nan

end
end Jnp
end Ripple

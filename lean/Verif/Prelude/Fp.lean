/-
  Binary floating-point arithmetic with correct rounding (IEEE 754, round to nearest, ties to even).

  This layer is used where rounding, overflow or underflow is the point of a property.  A format has a number of significand
  bits, a smallest positive number and an overflow threshold; `ftz` says whether results below the normal range are flushed
  to zero, as XLA does on most platforms, or kept as subnormal numbers.  Not modelled: the sign of zero, contraction of a
  multiplication and an addition into one operation.
-/
import Verif.Prelude.XR
import Mathlib.Data.Int.Log

namespace Ripple
namespace Fp

noncomputable section
open Classical

/-- A binary floating-point format. -/
structure Fmt where
  /-- number of significand bits -/
  p : ℕ
  /-- the smallest positive number is `2 ^ qmin` (before flushing) -/
  qmin : ℤ
  /-- results of modulus `2 ^ emax` and more overflow -/
  emax : ℤ
  /-- results below the normal range are flushed to zero -/
  ftz : Bool

/-- single precision, the default of JAX -/
def binary32 (ftz : Bool) : Fmt := ⟨24, -149, 128, ftz⟩

/-- double precision, JAX with `jax_enable_x64` -/
def binary64 (ftz : Bool) : Fmt := ⟨53, -1074, 1024, ftz⟩

/-- nearest integer, ties to even -/
def rne (y : ℝ) : ℤ :=
  if Int.fract y < 1 / 2 then ⌊y⌋
  else if 1 / 2 < Int.fract y then ⌊y⌋ + 1
  else if Even ⌊y⌋ then ⌊y⌋ else ⌊y⌋ + 1

namespace Fmt

/-- exponent of the last significand bit of the numbers around `x` -/
def lsb (F : Fmt) (x : ℝ) : ℤ := max (Int.log 2 |x| - (F.p - 1)) F.qmin

/-- nearest number of the format, before flushing and without overflow -/
def rnd (F : Fmt) (x : ℝ) : ℝ := rne (x / 2 ^ F.lsb x) * 2 ^ F.lsb x

/-- the smallest normal number -/
def minNormal (F : Fmt) : ℝ := 2 ^ (F.qmin + F.p - 1)

/-- relative rounding error of normal results -/
def u (F : Fmt) : ℝ := 2 ^ (-(F.p : ℤ))

/-- rounding, with subnormal results flushed to zero if the format does so -/
def rd (F : Fmt) (x : ℝ) : ℝ := if F.ftz = true ∧ |F.rnd x| < F.minNormal then 0 else F.rnd x

/-- rounding of a finite result, with overflow -/
def ofReal (F : Fmt) (x : ℝ) : XR :=
  if 2 ^ F.emax ≤ F.rd x then .pinf else if F.rd x ≤ -2 ^ F.emax then .ninf else .fin (F.rd x)

/-- rounding of a result -/
def round (F : Fmt) : XR → XR
  | .fin r => F.ofReal r
  | x => x

def add (F : Fmt) (a b : XR) : XR := F.round (a + b)
def sub (F : Fmt) (a b : XR) : XR := F.round (a - b)
def mul (F : Fmt) (a b : XR) : XR := F.round (a * b)
def div (F : Fmt) (a b : XR) : XR := F.round (a / b)
def sqrt (F : Fmt) (a : XR) : XR := F.round (XR.sqrt a)

/-- a finite number of the format -/
def IsFloat (F : Fmt) (x : ℝ) : Prop := F.rd x = x ∧ |x| < 2 ^ F.emax

end Fmt

end
end Fp
end Ripple

/-
  The analytic LIGO-I noise curve of src/ripplegw/noise.py in floating-point arithmetic.
-/
import Verif.Prelude.Fp

namespace Ripple
namespace Fp

noncomputable section

/-- The two powers of `Sn_LIGOI`, with a relative error and, for results below the normal range, an absolute one.
    `y ** (-56)` is `lax.integer_pow`, `x ** (-4.52)` is `lax.pow`; their algorithms are not fixed. -/
structure LIGOIPow (F : Fmt) where
  pow56 : XR → XR
  pow452 : XR → XR
  eps : ℝ
  eps_nonneg : 0 ≤ eps
  pow56_spec : ∀ y, F.rd y = y → 1 ≤ y → y ≤ 2 ^ 10 →
    ∃ r, pow56 (.fin y) = .fin r ∧ F.IsFloat r ∧ |r - y ^ (-56 : ℤ)| ≤ eps * y ^ (-56 : ℤ) + 2 * F.minNormal
  pow452_spec : ∀ x, F.rd x = x → 1 / 4 ≤ x → x ≤ 2 ^ 7 →
    ∃ r, pow452 (.fin x) = .fin r ∧ F.IsFloat r ∧ |r - x ^ (-4.52 : ℝ)| ≤ eps * x ^ (-4.52 : ℝ) + 2 * F.minNormal

/-- `Sn_LIGOI` in rounded arithmetic. src/ripplegw/noise.py:25-48.  The Python product `normalization * 9` is in double precision
    and converted to the format of the array, as are the other literals. -/
def Sn_LIGOI (F : Fmt) (lib : LIGOIPow F) (f : ℝ) : XR :=
  let fs : ℝ := 40
  let x := F.div (.fin f) (.fin 150)
  let normalization := (binary64 false).round (.fin 1e-46)
  let lit := fun r : ℝ => ({ F with ftz := false } : Fmt).round ((binary64 false).round (.fin r))
  let scale := ({ F with ftz := false } : Fmt).round ((binary64 false).mul normalization (.fin 9))
  if f > fs then
    F.mul scale
      (F.add (F.add (F.add (lib.pow56 (F.mul (lit 4.49) x)) (F.mul (lit 0.16) (lib.pow452 x))) (lit 0.52))
        (F.mul (lit 0.32) (F.mul x x)))
  else .pinf

end
end Fp
end Ripple

/-
  Specification of the conversions in rounded arithmetic: the formats and masses the statements are about, and what a binary
  with a given chirp mass and mass ratio is.
-/
import Verif.Prelude.Fp

namespace Ripple
namespace Fp

/-- what is used about a format: three bits, the numbers around 1 are normal with room for the rounding errors, 4 does not
    overflow -/
structure Fmt.WF (F : Fmt) : Prop where
  bits : 3 ≤ F.p
  low : F.qmin + 2 * F.p ≤ 1
  low' : F.qmin + F.p ≤ -1
  high : 3 ≤ F.emax

/-- what the tidal conversion needs of a format: ten bits, 256 does not overflow -/
structure Fmt.Roomy (F : Fmt) : Prop extends F.WF where
  ten : 10 ≤ F.p
  eight : 8 ≤ F.emax

/-- two masses with the given chirp mass and symmetric mass ratio -/
structure Binary (Mc eta x1 x2 : ℝ) : Prop where
  pos : 0 < x2
  le : x2 ≤ x1
  chirp : (x1 * x2) ^ ((3 : ℝ) / 5) / (x1 + x2) ^ ((1 : ℝ) / 5) = Mc
  ratio : x1 * x2 / (x1 + x2) ^ 2 = eta

/-- Masses for which no step of the conversions leaves the range of the format. -/
structure InRange (F : Fmt) (m1 m2 : ℝ) : Prop where
  pos : 0 < m2
  le : m2 ≤ m1
  low : 16 * F.minNormal ≤ m2
  prod : F.minNormal ≤ m1 * m2
  ratio : 2 * F.minNormal * (m1 + m2) ^ 2 ≤ m1 * m2
  sq : 256 * F.minNormal ≤ F.u * (m1 + m2) ^ 2
  high : 512 * (m1 + m2) ^ 2 < 2 ^ F.emax

end Fp
end Ripple

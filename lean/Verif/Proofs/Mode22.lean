/-
  Lemmas for the comparison of the inspiral amplitudes with the stationary-phase amplitude (C100): second derivative of the
  post-Newtonian phase, and products of truncated series with one logarithm.
-/
import Verif.Spec.Mode22
import Mathlib.Analysis.SpecialFunctions.Pow.Deriv
import Mathlib.Analysis.SpecialFunctions.Log.Deriv
import Mathlib.Analysis.SpecialFunctions.Pow.Asymptotics
import Mathlib.Analysis.Asymptotics.Lemmas

namespace Ripple.Mode22
open Filter Topology Asymptotics Real

/-- Product of the truncated series: `w` stands for `v * log (4 v)`. -/
lemma series (a2 a3 a4 a5 a6 a7 a8 a9 h2 h3 h4 h5 h6 hl r2 r3 r4 r5 r6 r7 rl F T : ℝ)
    (c2 : 2 * a2 = r2 + 2 * h2) (c3 : 2 * a3 = r3 + 2 * h3)
    (c4 : 2 * a4 + a2 ^ 2 = r4 + 2 * h2 * r2 + 2 * h4 + h2 ^ 2)
    (c5 : F + 2 * a5 + 2 * a2 * a3 = r5 + 2 * h2 * r3 + 2 * h3 * r2 + 2 * h5 + 2 * h2 * h3)
    (cl : rl + 2 * hl = 0) :
    ∃ Q : ℝ × ℝ → ℝ, Continuous Q ∧ ∀ v w : ℝ,
      (1 + a2 * v ^ 2 + a3 * v ^ 3 + a4 * v ^ 4 + a5 * v ^ 5 + a6 * v ^ 6 + a7 * v ^ 7 + a8 * v ^ 8 + a9 * v ^ 9) ^ 2
          * (1 + F * v ^ 5)
        - (1 + h2 * v ^ 2 + h3 * v ^ 3 + h4 * v ^ 4 + h5 * v ^ 5 + h6 * v ^ 6 + hl * (v ^ 5 * w)) ^ 2
          * (1 + r2 * v ^ 2 + r3 * v ^ 3 + r4 * v ^ 4 + r5 * v ^ 5 + r6 * v ^ 6 + rl * (v ^ 5 * w) + r7 * v ^ 7)
          * (1 + T * v ^ 6) =
      (2 * a6 + 2 * a2 * a4 + a3 ^ 2
        - (T + r6 + 2 * h2 * r4 + 2 * h3 * r3 + 2 * h4 * r2 + h2 ^ 2 * r2 + 2 * h6 + 2 * h2 * h4 + h3 ^ 2)) * v ^ 6
      + v ^ 7 * Q (v, w) := by
  refine ⟨fun p => let v := p.1; let w := p.2
      ((2 * F * a2 + 2 * a7 + 2 * a2 * a5 + 2 * a3 * a4) - (r7 + 2 * h2 * r5 + 2 * h3 * r4 + 2 * h4 * r3 + h2 *
      h2 * r3 + 2 * h5 * r2 + 2 * h2 * h3 * r2 + 2 * h2 * h5 + 2 * h3 * h4)) * v ^ 0 * w ^ 0 + ((2 * F * a3 + 2
      * a8 + 2 * a2 * a6 + 2 * a3 * a5 + a4 * a4) - (T * r2 + 2 * T * h2 + 2 * h2 * r6 + 2 * h3 * r5 + 2 * h4 *
      r4 + h2 * h2 * r4 + 2 * h5 * r3 + 2 * h2 * h3 * r3 + 2 * h6 * r2 + 2 * h2 * h4 * r2 + h3 * h3 * r2 + 2 *
      h2 * h6 + 2 * h3 * h5 + h4 * h4)) * v ^ 1 * w ^ 0 + ((0) - (2 * h2 * rl + 2 * hl * r2 + 2 * h2 * hl)) * v
      ^ 0 * w ^ 1 + ((2 * F * a4 + F * a2 * a2 + 2 * a9 + 2 * a2 * a7 + 2 * a3 * a6 + 2 * a4 * a5) - (T * r3 + 2
      * T * h3 + 2 * h2 * r7 + 2 * h3 * r6 + 2 * h4 * r5 + h2 * h2 * r5 + 2 * h5 * r4 + 2 * h2 * h3 * r4 + 2 *
      h6 * r3 + 2 * h2 * h4 * r3 + h3 * h3 * r3 + 2 * h2 * h5 * r2 + 2 * h3 * h4 * r2 + 2 * h3 * h6 + 2 * h4 *
      h5)) * v ^ 2 * w ^ 0 + ((0) - (2 * h3 * rl + 2 * hl * r3 + 2 * h3 * hl)) * v ^ 1 * w ^ 1 + ((2 * F * a5 +
      2 * F * a2 * a3 + 2 * a2 * a8 + 2 * a3 * a7 + 2 * a4 * a6 + a5 * a5) - (T * r4 + 2 * T * h2 * r2 + 2 * T *
      h4 + T * h2 * h2 + 2 * h3 * r7 + 2 * h4 * r6 + h2 * h2 * r6 + 2 * h5 * r5 + 2 * h2 * h3 * r5 + 2 * h6 * r4
      + 2 * h2 * h4 * r4 + h3 * h3 * r4 + 2 * h2 * h5 * r3 + 2 * h3 * h4 * r3 + 2 * h2 * h6 * r2 + 2 * h3 * h5 *
      r2 + h4 * h4 * r2 + 2 * h4 * h6 + h5 * h5)) * v ^ 3 * w ^ 0 + ((0) - (2 * h4 * rl + h2 * h2 * rl + 2 * hl
      * r4 + 2 * h2 * hl * r2 + 2 * h4 * hl)) * v ^ 2 * w ^ 1 + ((2 * F * a6 + 2 * F * a2 * a4 + F * a3 * a3 + 2
      * a2 * a9 + 2 * a3 * a8 + 2 * a4 * a7 + 2 * a5 * a6) - (T * r5 + 2 * T * h2 * r3 + 2 * T * h3 * r2 + 2 * T
      * h5 + 2 * T * h2 * h3 + 2 * h4 * r7 + h2 * h2 * r7 + 2 * h5 * r6 + 2 * h2 * h3 * r6 + 2 * h6 * r5 + 2 *
      h2 * h4 * r5 + h3 * h3 * r5 + 2 * h2 * h5 * r4 + 2 * h3 * h4 * r4 + 2 * h2 * h6 * r3 + 2 * h3 * h5 * r3 +
      h4 * h4 * r3 + 2 * h3 * h6 * r2 + 2 * h4 * h5 * r2 + 2 * h5 * h6)) * v ^ 4 * w ^ 0 + ((0) - (2 * h5 * rl +
      2 * h2 * h3 * rl + 2 * hl * r5 + 2 * h2 * hl * r3 + 2 * h3 * hl * r2 + 2 * h5 * hl)) * v ^ 3 * w ^ 1 + ((2
      * F * a7 + 2 * F * a2 * a5 + 2 * F * a3 * a4 + 2 * a3 * a9 + 2 * a4 * a8 + 2 * a5 * a7 + a6 * a6) - (T *
      r6 + 2 * T * h2 * r4 + 2 * T * h3 * r3 + 2 * T * h4 * r2 + T * h2 * h2 * r2 + 2 * T * h6 + 2 * T * h2 * h4
      + T * h3 * h3 + 2 * h5 * r7 + 2 * h2 * h3 * r7 + 2 * h6 * r6 + 2 * h2 * h4 * r6 + h3 * h3 * r6 + 2 * h2 *
      h5 * r5 + 2 * h3 * h4 * r5 + 2 * h2 * h6 * r4 + 2 * h3 * h5 * r4 + h4 * h4 * r4 + 2 * h3 * h6 * r3 + 2 *
      h4 * h5 * r3 + 2 * h4 * h6 * r2 + h5 * h5 * r2 + h6 * h6)) * v ^ 5 * w ^ 0 + ((0) - (T * rl + 2 * T * hl +
      2 * h6 * rl + 2 * h2 * h4 * rl + h3 * h3 * rl + 2 * hl * r6 + 2 * h2 * hl * r4 + 2 * h3 * hl * r3 + 2 * h4
      * hl * r2 + 2 * h6 * hl)) * v ^ 4 * w ^ 1 + ((0) - (2 * hl * rl + hl * hl)) * v ^ 3 * w ^ 2 + ((2 * F * a8
      + 2 * F * a2 * a6 + 2 * F * a3 * a5 + F * a4 * a4 + 2 * a4 * a9 + 2 * a5 * a8 + 2 * a6 * a7) - (T * r7 + 2
      * T * h2 * r5 + 2 * T * h3 * r4 + 2 * T * h4 * r3 + T * h2 * h2 * r3 + 2 * T * h5 * r2 + 2 * T * h2 * h3 *
      r2 + 2 * T * h2 * h5 + 2 * T * h3 * h4 + 2 * h6 * r7 + 2 * h2 * h4 * r7 + h3 * h3 * r7 + 2 * h2 * h5 * r6
      + 2 * h3 * h4 * r6 + 2 * h2 * h6 * r5 + 2 * h3 * h5 * r5 + h4 * h4 * r5 + 2 * h3 * h6 * r4 + 2 * h4 * h5 *
      r4 + 2 * h4 * h6 * r3 + h5 * h5 * r3 + 2 * h5 * h6 * r2)) * v ^ 6 * w ^ 0 + ((0) - (2 * hl * r7 + 2 * h2 *
      h5 * rl + 2 * h3 * h4 * rl + 2 * h2 * hl * r5 + 2 * h3 * hl * r4 + 2 * h4 * hl * r3 + 2 * h5 * hl * r2)) *
      v ^ 5 * w ^ 1 + ((2 * F * a9 + 2 * F * a2 * a7 + 2 * F * a3 * a6 + 2 * F * a4 * a5 + 2 * a5 * a9 + 2 * a6
      * a8 + a7 * a7) - (2 * T * h2 * r6 + 2 * T * h3 * r5 + 2 * T * h4 * r4 + T * h2 * h2 * r4 + 2 * T * h5 *
      r3 + 2 * T * h2 * h3 * r3 + 2 * T * h6 * r2 + 2 * T * h2 * h4 * r2 + T * h3 * h3 * r2 + 2 * T * h2 * h6 +
      2 * T * h3 * h5 + T * h4 * h4 + 2 * h2 * h5 * r7 + 2 * h3 * h4 * r7 + 2 * h2 * h6 * r6 + 2 * h3 * h5 * r6
      + h4 * h4 * r6 + 2 * h3 * h6 * r5 + 2 * h4 * h5 * r5 + 2 * h4 * h6 * r4 + h5 * h5 * r4 + 2 * h5 * h6 * r3
      + h6 * h6 * r2)) * v ^ 7 * w ^ 0 + ((0) - (2 * T * h2 * rl + 2 * T * hl * r2 + 2 * T * h2 * hl + 2 * h2 *
      h6 * rl + 2 * h3 * h5 * rl + h4 * h4 * rl + 2 * h2 * hl * r6 + 2 * h3 * hl * r5 + 2 * h4 * hl * r4 + 2 *
      h5 * hl * r3 + 2 * h6 * hl * r2)) * v ^ 6 * w ^ 1 + ((0) - (2 * h2 * hl * rl + hl * hl * r2)) * v ^ 5 * w
      ^ 2 + ((2 * F * a2 * a8 + 2 * F * a3 * a7 + 2 * F * a4 * a6 + F * a5 * a5 + 2 * a6 * a9 + 2 * a7 * a8) -
      (2 * T * h2 * r7 + 2 * T * h3 * r6 + 2 * T * h4 * r5 + T * h2 * h2 * r5 + 2 * T * h5 * r4 + 2 * T * h2 *
      h3 * r4 + 2 * T * h6 * r3 + 2 * T * h2 * h4 * r3 + T * h3 * h3 * r3 + 2 * T * h2 * h5 * r2 + 2 * T * h3 *
      h4 * r2 + 2 * T * h3 * h6 + 2 * T * h4 * h5 + 2 * h2 * h6 * r7 + 2 * h3 * h5 * r7 + h4 * h4 * r7 + 2 * h3
      * h6 * r6 + 2 * h4 * h5 * r6 + 2 * h4 * h6 * r5 + h5 * h5 * r5 + 2 * h5 * h6 * r4 + h6 * h6 * r3)) * v ^ 8
      * w ^ 0 + ((0) - (2 * T * h3 * rl + 2 * T * hl * r3 + 2 * T * h3 * hl + 2 * h2 * hl * r7 + 2 * h3 * h6 *
      rl + 2 * h4 * h5 * rl + 2 * h3 * hl * r6 + 2 * h4 * hl * r5 + 2 * h5 * hl * r4 + 2 * h6 * hl * r3)) * v ^
      7 * w ^ 1 + ((0) - (2 * h3 * hl * rl + hl * hl * r3)) * v ^ 6 * w ^ 2 + ((2 * F * a2 * a9 + 2 * F * a3 *
      a8 + 2 * F * a4 * a7 + 2 * F * a5 * a6 + 2 * a7 * a9 + a8 * a8) - (2 * T * h3 * r7 + 2 * T * h4 * r6 + T *
      h2 * h2 * r6 + 2 * T * h5 * r5 + 2 * T * h2 * h3 * r5 + 2 * T * h6 * r4 + 2 * T * h2 * h4 * r4 + T * h3 *
      h3 * r4 + 2 * T * h2 * h5 * r3 + 2 * T * h3 * h4 * r3 + 2 * T * h2 * h6 * r2 + 2 * T * h3 * h5 * r2 + T *
      h4 * h4 * r2 + 2 * T * h4 * h6 + T * h5 * h5 + 2 * h3 * h6 * r7 + 2 * h4 * h5 * r7 + 2 * h4 * h6 * r6 + h5
      * h5 * r6 + 2 * h5 * h6 * r5 + h6 * h6 * r4)) * v ^ 9 * w ^ 0 + ((0) - (2 * T * h4 * rl + T * h2 * h2 * rl
      + 2 * T * hl * r4 + 2 * T * h2 * hl * r2 + 2 * T * h4 * hl + 2 * h3 * hl * r7 + 2 * h4 * h6 * rl + h5 * h5
      * rl + 2 * h4 * hl * r6 + 2 * h5 * hl * r5 + 2 * h6 * hl * r4)) * v ^ 8 * w ^ 1 + ((0) - (2 * h4 * hl * rl
      + hl * hl * r4)) * v ^ 7 * w ^ 2 + ((2 * F * a3 * a9 + 2 * F * a4 * a8 + 2 * F * a5 * a7 + F * a6 * a6 + 2
      * a8 * a9) - (2 * T * h4 * r7 + T * h2 * h2 * r7 + 2 * T * h5 * r6 + 2 * T * h2 * h3 * r6 + 2 * T * h6 *
      r5 + 2 * T * h2 * h4 * r5 + T * h3 * h3 * r5 + 2 * T * h2 * h5 * r4 + 2 * T * h3 * h4 * r4 + 2 * T * h2 *
      h6 * r3 + 2 * T * h3 * h5 * r3 + T * h4 * h4 * r3 + 2 * T * h3 * h6 * r2 + 2 * T * h4 * h5 * r2 + 2 * T *
      h5 * h6 + 2 * h4 * h6 * r7 + h5 * h5 * r7 + 2 * h5 * h6 * r6 + h6 * h6 * r5)) * v ^ 10 * w ^ 0 + ((0) - (2
      * T * h5 * rl + 2 * T * h2 * h3 * rl + 2 * T * hl * r5 + 2 * T * h2 * hl * r3 + 2 * T * h3 * hl * r2 + 2 *
      T * h5 * hl + 2 * h4 * hl * r7 + 2 * h5 * h6 * rl + 2 * h5 * hl * r6 + 2 * h6 * hl * r5)) * v ^ 9 * w ^ 1
      + ((0) - (2 * h5 * hl * rl + hl * hl * r5)) * v ^ 8 * w ^ 2 + ((2 * F * a4 * a9 + 2 * F * a5 * a8 + 2 * F
      * a6 * a7 + a9 * a9) - (2 * T * h5 * r7 + 2 * T * h2 * h3 * r7 + 2 * T * h6 * r6 + 2 * T * h2 * h4 * r6 +
      T * h3 * h3 * r6 + 2 * T * h2 * h5 * r5 + 2 * T * h3 * h4 * r5 + 2 * T * h2 * h6 * r4 + 2 * T * h3 * h5 *
      r4 + T * h4 * h4 * r4 + 2 * T * h3 * h6 * r3 + 2 * T * h4 * h5 * r3 + 2 * T * h4 * h6 * r2 + T * h5 * h5 *
      r2 + T * h6 * h6 + 2 * h5 * h6 * r7 + h6 * h6 * r6)) * v ^ 11 * w ^ 0 + ((0) - (2 * T * h6 * rl + 2 * T *
      h2 * h4 * rl + T * h3 * h3 * rl + 2 * T * hl * r6 + 2 * T * h2 * hl * r4 + 2 * T * h3 * hl * r3 + 2 * T *
      h4 * hl * r2 + 2 * T * h6 * hl + 2 * h5 * hl * r7 + h6 * h6 * rl + 2 * h6 * hl * r6)) * v ^ 10 * w ^ 1 +
      ((0) - (2 * T * hl * rl + T * hl * hl + 2 * h6 * hl * rl + hl * hl * r6)) * v ^ 9 * w ^ 2 + ((0) - (hl *
      hl * rl)) * v ^ 8 * w ^ 3 + ((2 * F * a5 * a9 + 2 * F * a6 * a8 + F * a7 * a7) - (2 * T * h6 * r7 + 2 * T
      * h2 * h4 * r7 + T * h3 * h3 * r7 + 2 * T * h2 * h5 * r6 + 2 * T * h3 * h4 * r6 + 2 * T * h2 * h6 * r5 + 2
      * T * h3 * h5 * r5 + T * h4 * h4 * r5 + 2 * T * h3 * h6 * r4 + 2 * T * h4 * h5 * r4 + 2 * T * h4 * h6 * r3
      + T * h5 * h5 * r3 + 2 * T * h5 * h6 * r2 + h6 * h6 * r7)) * v ^ 12 * w ^ 0 + ((0) - (2 * T * hl * r7 + 2
      * T * h2 * h5 * rl + 2 * T * h3 * h4 * rl + 2 * T * h2 * hl * r5 + 2 * T * h3 * hl * r4 + 2 * T * h4 * hl
      * r3 + 2 * T * h5 * hl * r2 + 2 * h6 * hl * r7)) * v ^ 11 * w ^ 1 + ((0) - (hl * hl * r7)) * v ^ 10 * w ^
      2 + ((2 * F * a6 * a9 + 2 * F * a7 * a8) - (2 * T * h2 * h5 * r7 + 2 * T * h3 * h4 * r7 + 2 * T * h2 * h6
      * r6 + 2 * T * h3 * h5 * r6 + T * h4 * h4 * r6 + 2 * T * h3 * h6 * r5 + 2 * T * h4 * h5 * r5 + 2 * T * h4
      * h6 * r4 + T * h5 * h5 * r4 + 2 * T * h5 * h6 * r3 + T * h6 * h6 * r2)) * v ^ 13 * w ^ 0 + ((0) - (2 * T
      * h2 * h6 * rl + 2 * T * h3 * h5 * rl + T * h4 * h4 * rl + 2 * T * h2 * hl * r6 + 2 * T * h3 * hl * r5 + 2
      * T * h4 * hl * r4 + 2 * T * h5 * hl * r3 + 2 * T * h6 * hl * r2)) * v ^ 12 * w ^ 1 + ((0) - (2 * T * h2 *
      hl * rl + T * hl * hl * r2)) * v ^ 11 * w ^ 2 + ((2 * F * a7 * a9 + F * a8 * a8) - (2 * T * h2 * h6 * r7 +
      2 * T * h3 * h5 * r7 + T * h4 * h4 * r7 + 2 * T * h3 * h6 * r6 + 2 * T * h4 * h5 * r6 + 2 * T * h4 * h6 *
      r5 + T * h5 * h5 * r5 + 2 * T * h5 * h6 * r4 + T * h6 * h6 * r3)) * v ^ 14 * w ^ 0 + ((0) - (2 * T * h2 *
      hl * r7 + 2 * T * h3 * h6 * rl + 2 * T * h4 * h5 * rl + 2 * T * h3 * hl * r6 + 2 * T * h4 * hl * r5 + 2 *
      T * h5 * hl * r4 + 2 * T * h6 * hl * r3)) * v ^ 13 * w ^ 1 + ((0) - (2 * T * h3 * hl * rl + T * hl * hl *
      r3)) * v ^ 12 * w ^ 2 + ((2 * F * a8 * a9) - (2 * T * h3 * h6 * r7 + 2 * T * h4 * h5 * r7 + 2 * T * h4 *
      h6 * r6 + T * h5 * h5 * r6 + 2 * T * h5 * h6 * r5 + T * h6 * h6 * r4)) * v ^ 15 * w ^ 0 + ((0) - (2 * T *
      h3 * hl * r7 + 2 * T * h4 * h6 * rl + T * h5 * h5 * rl + 2 * T * h4 * hl * r6 + 2 * T * h5 * hl * r5 + 2 *
      T * h6 * hl * r4)) * v ^ 14 * w ^ 1 + ((0) - (2 * T * h4 * hl * rl + T * hl * hl * r4)) * v ^ 13 * w ^ 2 +
      ((F * a9 * a9) - (2 * T * h4 * h6 * r7 + T * h5 * h5 * r7 + 2 * T * h5 * h6 * r6 + T * h6 * h6 * r5)) * v
      ^ 16 * w ^ 0 + ((0) - (2 * T * h4 * hl * r7 + 2 * T * h5 * h6 * rl + 2 * T * h5 * hl * r6 + 2 * T * h6 *
      hl * r5)) * v ^ 15 * w ^ 1 + ((0) - (2 * T * h5 * hl * rl + T * hl * hl * r5)) * v ^ 14 * w ^ 2 + ((0) -
      (2 * T * h5 * h6 * r7 + T * h6 * h6 * r6)) * v ^ 17 * w ^ 0 + ((0) - (2 * T * h5 * hl * r7 + T * h6 * h6 *
      rl + 2 * T * h6 * hl * r6)) * v ^ 16 * w ^ 1 + ((0) - (2 * T * h6 * hl * rl + T * hl * hl * r6)) * v ^ 15
      * w ^ 2 + ((0) - (T * hl * hl * rl)) * v ^ 14 * w ^ 3 + ((0) - (T * h6 * h6 * r7)) * v ^ 18 * w ^ 0 + ((0)
      - (2 * T * h6 * hl * r7)) * v ^ 17 * w ^ 1 + ((0) - (T * hl * hl * r7)) * v ^ 16 * w ^ 2, ?_, fun v w => ?_⟩
  · simp only
    fun_prop
  · simp only
    linear_combination v ^ 2 * c2 + v ^ 3 * c3 + v ^ 4 * c4 + v ^ 5 * c5 - v ^ 5 * w * cl

section Deriv
variable {K : ℝ} (hK : 0 < K)
include hK

lemma v_pos {f : ℝ} (hf : 0 < f) : 0 < (K * f) ^ ((1 : ℝ) / 3) := by positivity

lemma hasDerivAt_v {f : ℝ} (hf : 0 < f) :
    HasDerivAt (fun f => (K * f) ^ ((1 : ℝ) / 3)) ((K * f) ^ ((1 : ℝ) / 3) / (3 * f)) f := by
  have hKf : 0 < K * f := by positivity
  have h0 : HasDerivAt (fun y : ℝ => K * y) K f := by simpa using (hasDerivAt_id f).const_mul K
  have := h0.rpow_const (p := (1 : ℝ) / 3) (Or.inl hKf.ne')
  convert this using 1
  rw [Real.rpow_sub_one hKf.ne']
  field_simp

/-- Second derivative of the series; `N` overall constant. -/
lemma second_deriv (N p2 p3 p4 p5 p6 l6 p7 : ℝ) (P : ℝ → ℝ)
    (hP : ∀ f, 0 < f → let v := (K * f) ^ ((1 : ℝ) / 3)
      P f = N * (v⁻¹ ^ 5 + p2 * v⁻¹ ^ 3 + p3 * v⁻¹ ^ 2 + p4 * v⁻¹ + p5 * (1 + 3 * log v) + (p6 + l6 * log (4 * v)) * v
        + p7 * v ^ 2)) {f : ℝ} (hf : 0 < f) :
    let v := (K * f) ^ ((1 : ℝ) / 3)
    deriv (deriv P) f = N / (9 * f ^ 2) * (40 * v⁻¹ ^ 5 + 18 * p2 * v⁻¹ ^ 3 + 10 * p3 * v⁻¹ ^ 2 + 4 * p4 * v⁻¹ - 9 * p5
      - (2 * (p6 + l6 * log (4 * v)) + l6) * v - 2 * p7 * v ^ 2) := by
  have d1 : ∀ f, 0 < f → deriv P f = (fun f => let v := (K * f) ^ ((1 : ℝ) / 3)
      N / (3 * f) * (-5 * v⁻¹ ^ 5 - 3 * p2 * v⁻¹ ^ 3 - 2 * p3 * v⁻¹ ^ 2 - p4 * v⁻¹ + 3 * p5
        + (p6 + l6 * log (4 * v) + l6) * v + 2 * p7 * v ^ 2)) f := by
    intro f hf
    have hv := v_pos hK hf
    have hd := hasDerivAt_v hK hf
    generalize hV : (fun f => (K * f) ^ ((1 : ℝ) / 3)) = V at hd
    have hVf : ∀ y, (K * y) ^ ((1 : ℝ) / 3) = V y := fun y => by rw [← hV]
    simp only [hVf] at hd hv hP ⊢
    have hi : HasDerivAt (fun y => (V y)⁻¹) (-(V f / (3 * f)) / V f ^ 2) f := hd.inv hv.ne'
    have hl := hd.log hv.ne'
    have hl4 := (hd.const_mul 4).log (by positivity)
    have key : HasDerivAt (fun y => N * ((V y)⁻¹ ^ 5 + p2 * (V y)⁻¹ ^ 3 + p3 * (V y)⁻¹ ^ 2 + p4 * (V y)⁻¹
        + p5 * (1 + 3 * log (V y)) + (p6 + l6 * log (4 * V y)) * V y + p7 * V y ^ 2)) _ f :=
      (((((((hi.fun_pow 5).fun_add ((hi.fun_pow 3).const_mul p2)).fun_add ((hi.fun_pow 2).const_mul p3)).fun_add (hi.const_mul p4)).fun_add
      (((hl.const_mul 3).const_add 1).const_mul p5)).fun_add (((hl4.const_mul l6).const_add p6).fun_mul hd)).fun_add
      ((hd.fun_pow 2).const_mul p7)).const_mul N
    rw [(key.congr_of_eventuallyEq (by
      filter_upwards [lt_mem_nhds hf] with y hy using hP y hy)).deriv]
    simp only [Nat.reduceSub, pow_one, Nat.cast_ofNat, inv_pow]
    field_simp
    ring
  have hv := v_pos hK hf
  have hd := hasDerivAt_v hK hf
  generalize hV : (fun f => (K * f) ^ ((1 : ℝ) / 3)) = V at hd
  have hVf : ∀ y, (K * y) ^ ((1 : ℝ) / 3) = V y := fun y => by rw [← hV]
  simp only [hVf] at hd hv d1 ⊢
  have hi : HasDerivAt (fun y => (V y)⁻¹) (-(V f / (3 * f)) / V f ^ 2) f := hd.inv hv.ne'
  have hl4 := (hd.const_mul 4).log (by positivity)
  have hfi : HasDerivAt (fun y : ℝ => N / (3 * y)) (-(N / (3 * f ^ 2))) f := by
    have h0 : HasDerivAt (fun y : ℝ => 3 * y) 3 f := by simpa using (hasDerivAt_id f).const_mul 3
    refine ((hasDerivAt_const f N).fun_div h0 (by positivity)).congr_deriv ?_
    field_simp
    ring
  have key : HasDerivAt (fun y => N / (3 * y) * (-5 * (V y)⁻¹ ^ 5 - 3 * p2 * (V y)⁻¹ ^ 3 - 2 * p3 * (V y)⁻¹ ^ 2
      - p4 * (V y)⁻¹ + 3 * p5 + (p6 + l6 * log (4 * V y) + l6) * V y + 2 * p7 * V y ^ 2)) _ f :=
    hfi.fun_mul ((((((((hi.fun_pow 5).const_mul (-5)).fun_sub ((hi.fun_pow 3).const_mul (3 * p2))).fun_sub
    ((hi.fun_pow 2).const_mul (2 * p3))).fun_sub (hi.const_mul p4)).add_const (3 * p5)).fun_add
    ((((hl4.const_mul l6).const_add p6).add_const l6).fun_mul hd)).fun_add ((hd.fun_pow 2).const_mul (2 * p7)))
  rw [(key.congr_of_eventuallyEq (by
    filter_upwards [lt_mem_nhds hf] with y hy using d1 y hy)).deriv]
  simp only [Nat.reduceSub, pow_one, Nat.cast_ofNat, inv_pow]
  field_simp
  ring

end Deriv

/-- A continuous function of `v` and `v log (4 v)` is bounded as `f → 0`. -/
lemma bounded {K : ℝ} (hK : 0 < K) {Q : ℝ × ℝ → ℝ} (hQ : Continuous Q) :
    (fun f : ℝ => let v := (K * f) ^ ((1 : ℝ) / 3); Q (v, v * log (4 * v))) =O[𝓝[>] 0] (fun _ => (1 : ℝ)) := by
  have hv : Tendsto (fun f : ℝ => (K * f) ^ ((1 : ℝ) / 3)) (𝓝[>] 0) (𝓝[>] 0) := by
    refine tendsto_nhdsWithin_iff.2 ⟨?_, ?_⟩
    · have : ContinuousAt (fun f : ℝ => (K * f) ^ ((1 : ℝ) / 3)) 0 :=
        ContinuousAt.rpow_const (by fun_prop) (Or.inr (by norm_num))
      have h := this.tendsto
      simp only [mul_zero] at h
      rw [Real.zero_rpow (by norm_num)] at h
      exact h.mono_left nhdsWithin_le_nhds
    · filter_upwards [self_mem_nhdsWithin] with f hf using v_pos hK hf
  have hl : Tendsto (fun v : ℝ => v * log (4 * v)) (𝓝[>] 0) (𝓝 0) := by
    have h := (tendsto_log_mul_rpow_nhdsGT_zero (r := 1) one_pos)
    have h' : Tendsto (fun v : ℝ => v * log 4 + log v * v ^ (1 : ℝ)) (𝓝[>] 0) (𝓝 (0 * log 4 + 0)) :=
      ((tendsto_id.mono_left nhdsWithin_le_nhds).mul_const _).add h
    simp only [zero_mul, add_zero] at h'
    refine h'.congr' ?_
    filter_upwards [self_mem_nhdsWithin] with v hv
    rw [Real.log_mul (by norm_num) (ne_of_gt hv), Real.rpow_one]
    ring
  have hp : Tendsto (fun f : ℝ => ((K * f) ^ ((1 : ℝ) / 3), (K * f) ^ ((1 : ℝ) / 3) * log (4 * (K * f) ^ ((1 : ℝ) / 3))))
      (𝓝[>] 0) (𝓝 (0, 0)) :=
    (hv.mono_right nhdsWithin_le_nhds).prodMk_nhds (hl.comp hv)
  exact ((hQ.tendsto (0, 0)).comp hp).isBigO_one ℝ

lemma v_pow {K : ℝ} (hK : 0 < K) {f : ℝ} (hf : 0 < f) (n : ℕ) :
    ((K * f) ^ ((1 : ℝ) / 3)) ^ n = K ^ ((n : ℝ) / 3) * f ^ ((n : ℝ) / 3) := by
  rw [← Real.rpow_natCast, ← Real.rpow_mul (by positivity), ← Real.mul_rpow hK.le hf.le]
  congr 1
  ring

lemma bigO_v {K : ℝ} (hK : 0 < K) (n : ℕ) :
    (fun f : ℝ => ((K * f) ^ ((1 : ℝ) / 3)) ^ n) =O[𝓝[>] 0] (fun f : ℝ => f ^ ((n : ℝ) / 3)) := by
  have : (fun f : ℝ => ((K * f) ^ ((1 : ℝ) / 3)) ^ n) =ᶠ[𝓝[>] 0] (fun f : ℝ => K ^ ((n : ℝ) / 3) * f ^ ((n : ℝ) / 3)) := by
    filter_upwards [self_mem_nhdsWithin] with f hf using v_pow hK hf n
  exact this.trans_isBigO (isBigO_const_mul_self _ _ _)

end Ripple.Mode22

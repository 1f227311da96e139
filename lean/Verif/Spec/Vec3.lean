/-
  Specification vocabulary: vectors of three dimensional space.
-/
import Mathlib.Analysis.SpecialFunctions.Trigonometric.Basic
import Mathlib.Analysis.SpecialFunctions.Pow.Real

namespace Ripple

/-- vectors of three dimensional space -/
abbrev V3 := ℝ × ℝ × ℝ

namespace V3

/-- scalar product -/
def dot (u v : V3) : ℝ := u.1 * v.1 + u.2.1 * v.2.1 + u.2.2 * v.2.2

/-- vector product -/
def cross (u v : V3) : V3 :=
  (u.2.1 * v.2.2 - u.2.2 * v.2.1, u.2.2 * v.1 - u.1 * v.2.2, u.1 * v.2.1 - u.2.1 * v.1)

/-- Euclidean length -/
noncomputable def len (u : V3) : ℝ := Real.sqrt (dot u u)

/-- linear combination -/
def comb (a : ℝ) (u : V3) (b : ℝ) (v : V3) : V3 :=
  (a * u.1 + b * v.1, a * u.2.1 + b * v.2.1, a * u.2.2 + b * v.2.2)

/-- the unit vector with polar angle `theta` and azimuth `phi` -/
noncomputable def dir (theta phi : ℝ) : V3 :=
  (Real.sin theta * Real.cos phi, Real.sin theta * Real.sin phi, Real.cos theta)

/-- rotation about the z axis, counterclockwise by `d` -/
noncomputable def aboutZ (d : ℝ) (u : V3) : V3 :=
  (u.1 * Real.cos d - u.2.1 * Real.sin d, u.1 * Real.sin d + u.2.1 * Real.cos d, u.2.2)

/-- proper rotations: linear maps that preserve scalar and vector products -/
structure IsRotation (R : V3 → V3) : Prop where
  linear : ∀ a u b v, R (comb a u b v) = comb a (R u) b (R v)
  dot : ∀ u v, dot (R u) (R v) = dot u v
  cross : ∀ u v, R (V3.cross u v) = V3.cross (R u) (R v)

lemma IsRotation.comp {R S : V3 → V3} (hR : IsRotation R) (hS : IsRotation S) : IsRotation (R ∘ S) where
  linear a u b v := by simp only [Function.comp, hS.linear, hR.linear]
  dot u v := by simp only [Function.comp, hS.dot, hR.dot]
  cross u v := by simp only [Function.comp, hS.cross, hR.cross]

end V3

/-- Orbital angular momentum (in units `G = c = 1`) of a binary of total mass `M` and symmetric mass ratio `eta` at
    orbital velocity parameter `v`, to second post-Newtonian order with the coefficients used by PhenomPv2. -/
noncomputable def orbitalL (M eta v : ℝ) : ℝ :=
  M ^ 2 * eta / v * (1 + (3 / 2 + eta / 6) * v ^ 2 + (27 / 8 - 19 * eta / 8 - eta ^ 2 / 24) * v ^ 4)

/-- Total angular momentum at the reference frequency, in a frame whose z axis is the orbital angular momentum: orbital
    plus spin angular momenta of bodies with masses `m1`, `m2` (solar masses) and dimensionless spins `s1`, `s2`.
    `msun` is the solar mass in seconds. -/
noncomputable def totalJ (msun m1 m2 f_ref : ℝ) (s1 s2 : V3) : V3 :=
  let v := (Real.pi * ((m1 + m2) * msun) * f_ref) ^ ((1 : ℝ) / 3)
  (m1 ^ 2 * s1.1 + m2 ^ 2 * s2.1, m1 ^ 2 * s1.2.1 + m2 ^ 2 * s2.2.1,
    orbitalL (m1 + m2) (m1 * m2 / (m1 + m2) ^ 2) v + m1 ^ 2 * s1.2.2 + m2 ^ 2 * s2.2.2)

end Ripple

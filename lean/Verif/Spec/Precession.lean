/-
  Specification vocabulary for precessing binaries: precession cone, azimuth series, instantaneous inclination.
  `m1` is the heavier body throughout.
-/
import Verif.Model.PhenomPv2Utils
import Verif.Spec.Vec3

namespace Ripple
namespace Pv2

/-- frequency series of the precession angles -/
noncomputable def nnlo (c1 c2 c3 c4 c5 w : ℝ) : ℝ :=
  c1 / w + c2 / (w ^ ((1 : ℝ) / 3) * w ^ ((1 : ℝ) / 3)) + c3 / w ^ ((1 : ℝ) / 3) + c4 * Real.log w + c5 * w ^ ((1 : ℝ) / 3)

/-- azimuth series -/
noncomputable def alphaS (a : AngCoeffs) (w : ℝ) : ℝ :=
  nnlo a.alphacoeff1 a.alphacoeff2 a.alphacoeff3 a.alphacoeff4 a.alphacoeff5 w

/-- third Euler angle series -/
noncomputable def epsS (a : AngCoeffs) (w : ℝ) : ℝ :=
  nnlo a.epsiloncoeff1 a.epsiloncoeff2 a.epsiloncoeff3 a.epsiloncoeff4 a.epsiloncoeff5 w

/-- the angle coefficients used by the generator (`m1` is the heavier body) -/
noncomputable def angP (m1 m2 : ℝ) (s1 s2 : V3) (chip : ℝ) : AngCoeffs :=
  ComputeNNLOanglecoeffs (m1 / m2) ((1 + m1 / m2) / (m1 / m2) * ((m2 * s2.2.2 + m1 * s1.2.2) / (m2 + m1))) chip

end Pv2

open Pv2

/-- orbital velocity parameter at gravitational-wave frequency `f` -/
noncomputable def vOf (m1 m2 f : ℝ) : ℝ := (Real.pi * ((m1 + m2) * gt) * f) ^ ((1 : ℝ) / 3)

/-- orbital plus aligned spin angular momentum in units of the squared total mass -/
noncomputable def LplusS (m1 m2 : ℝ) (s1 s2 : V3) (f : ℝ) : ℝ :=
  orbitalL 1 (m1 * m2 / (m1 + m2) ^ 2) (vOf m1 m2 f)
    + (m1 ^ 2 * s1.2.2 + m2 ^ 2 * s2.2.2) / (m1 + m2) ^ 2

/-- opening angle of the precession cone at frequency `f`, for effective precession spin `chip` on the heavier body -/
noncomputable def coneAngle (m1 m2 : ℝ) (s1 s2 : V3) (chip f : ℝ) : ℝ :=
  Real.arctan |chip * (m1 / (m1 + m2)) ^ 2 / LplusS m1 m2 s1 s2 f|

/-- azimuth of the orbital angular momentum about the total angular momentum at frequency `f` -/
noncomputable def azimuth (m1 m2 : ℝ) (s1 s2 : V3) (c : Converted) (f_ref f : ℝ) : ℝ :=
  alphaS (angP m1 m2 s1 s2 c.chip) (Real.pi * ((m1 + m2) * gt) * f)
    - alphaS (angP m1 m2 s1 s2 c.chip) (Real.pi * ((m1 + m2) * gt) * f_ref) + c.alpha0

/-- cosine of the angle between the line of sight and the orbital angular momentum at frequency `f`: spherical
    triangle with sides `coneAngle`, `thetaJN` and enclosed angle `azimuth` -/
noncomputable def cosInst (m1 m2 : ℝ) (s1 s2 : V3) (c : Converted) (f_ref f : ℝ) : ℝ :=
  Real.cos (coneAngle m1 m2 s1 s2 c.chip f) * Real.cos c.thetaJN
    + Real.sin (coneAngle m1 m2 s1 s2 c.chip f) * Real.sin c.thetaJN * Real.cos (azimuth m1 m2 s1 s2 c f_ref f)

end Ripple

/-
  Independent specification: amplitude of the dominant mode in the stationary-phase approximation.

  Literature: the (2,2) mode of a quasi-circular binary through 3PN (Kidder 2008; Blanchet, Faye, Iyer, Sinha 2008), with the
  1.5PN spin-orbit and 2PN spin-spin terms of Arun, Buonanno, Faye, Ochsner 2009; the stationary-phase relation
  `|h(f)|² ∝ |h22(t_f)|² dt/df` with `2π dt/df = ψ''(f)`, ψ the stationary-phase phase (Cutler, Flanagan 1994).
-/
import Verif.Spec.PN
import Mathlib.Analysis.Calculus.Deriv.Basic

namespace Ripple.Spec
noncomputable section
open Real

/-- modulus of the (2,2) mode over its Newtonian value, through 3PN: its imaginary part starts at `v^5` and enters the
    modulus beyond `v^6`. `v = (π M f)^(1/3)`. -/
def mode22 (η δ χ1 χ2 v : ℝ) : ℝ :=
  let χs := (χ1 + χ2) / 2
  let χa := (χ1 - χ2) / 2
  1 + (-(107 / 42) + 55 / 42 * η) * v ^ 2
    + (2 * π - 4 / 3 * (δ * χa + (1 - η) * χs)) * v ^ 3
    + (-(2173 / 1512) - 1069 / 216 * η + 2047 / 1512 * η ^ 2 + 2 * η * χ1 * χ2) * v ^ 4
    + π * (-(107 / 21) + 34 / 21 * η) * v ^ 5
    + (27027409 / 646800 - 856 / 105 * (EulerGamma + log (4 * v)) + 2 / 3 * π ^ 2
      + (-(278185 / 33264) + 41 / 96 * π ^ 2) * η - 20261 / 2772 * η ^ 2 + 114635 / 99792 * η ^ 3) * v ^ 6

/-- the Newtonian stationary-phase phase -/
def newtonianPhase (m1 m2 f : ℝ) : ℝ :=
  3 / (128 * eta m1 m2 * ((π * ((m1 + m2) * gt) * f) ^ ((1 : ℝ) / 3)) ^ 5)

/-- time spent per unit frequency over its Newtonian value: ratio of the second derivatives of the phases -/
def timePerFrequency (m1 m2 χ1 χ2 f : ℝ) : ℝ :=
  deriv (deriv (f2Phase m1 m2 χ1 χ2 0 0 1 1)) f / deriv (deriv (newtonianPhase m1 m2)) f

/-- square of the stationary-phase amplitude over its Newtonian value -/
def spaPower (m1 m2 χ1 χ2 f : ℝ) : ℝ :=
  mode22 (eta m1 m2) (delta m1 m2) χ1 χ2 ((π * ((m1 + m2) * gt) * f) ^ ((1 : ℝ) / 3)) ^ 2
    * timePerFrequency m1 m2 χ1 χ2 f

/-- energy flux absorbed by the horizons, coefficient of `v^5` relative to the Newtonian flux at infinity
    (Tagoshi, Mano, Takasugi 1997; Alvi 2001) -/
def horizonFlux (m1 m2 χ1 χ2 : ℝ) : ℝ :=
  -(1 / 4) * ((m1 / (m1 + m2)) ^ 3 * χ1 * (1 + 3 * χ1 ^ 2) + (m2 / (m1 + m2)) ^ 3 * χ2 * (1 + 3 * χ2 ^ 2))

/-- spin-orbit tail term of the flux at infinity, coefficient of `v^6` relative to the Newtonian flux
    (Blanchet, Buonanno, Faye 2011) -/
def tailFlux (m1 m2 χ1 χ2 : ℝ) : ℝ :=
  π * (-(65 / 6) * delta m1 m2 * ((χ1 - χ2) / 2) + (-(65 / 6) + 34 / 3 * eta m1 m2) * ((χ1 + χ2) / 2))

/-- general form of a 3PN contribution quadratic in the spins: each body's own term is its squared spin times a polynomial
    in its own mass fraction, the same for both bodies, and the cross term is symmetric -/
def spinSquared (a0 a1 a2 b0 b1 m1 m2 χ1 χ2 : ℝ) : ℝ :=
  let X1 := m1 / (m1 + m2)
  let X2 := m2 / (m1 + m2)
  (a0 + a1 * X1 + a2 * X1 ^ 2) * X1 ^ 2 * χ1 ^ 2 + (a0 + a1 * X2 + a2 * X2 ^ 2) * X2 ^ 2 * χ2 ^ 2
    + (b0 + b1 * (X1 * X2)) * (X1 * X2) * χ1 * χ2

end
end Ripple.Spec

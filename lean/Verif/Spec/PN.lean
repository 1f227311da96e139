/-
  Independent specification: post-Newtonian stationary-phase waveform (3.5PN point-particle phase with spin-orbit terms
  in the symmetric/antisymmetric spin form of Mishra et al. 2016, 2PN and 3PN spin-spin and quadrupole-monopole terms,
  tidal terms of Vines, Flanagan, Hinderer 2011 in the form of Wade et al. 2014), and the Newtonian amplitude.
-/
import Verif.Model.Constants
import Verif.Spec.Tidal
import Mathlib.Analysis.SpecialFunctions.Pow.Real

namespace Ripple.Spec
noncomputable section
open Real

/-- symmetric mass ratio -/
def eta (m1 m2 : ℝ) : ℝ := m1 * m2 / (m1 + m2) ^ 2
/-- relative mass difference -/
def delta (m1 m2 : ℝ) : ℝ := (m1 - m2) / (m1 + m2)

/-- coefficient of v^2 (1PN) -/
def psi2 (η : ℝ) : ℝ := 3715 / 756 + 55 / 9 * η
/-- coefficient of v^3 (1.5PN): tail and spin-orbit -/
def psi3 (η δ χs χa : ℝ) : ℝ := -16 * π + (113 / 3 - 76 / 3 * η) * χs + 113 / 3 * δ * χa
/-- coefficient of v^4 (2PN), point particle -/
def psi4 (η : ℝ) : ℝ := 15293365 / 508032 + 27145 / 504 * η + 3085 / 72 * η ^ 2
/-- spin-spin and quadrupole terms at v^4; `X` mass fraction, `q` quadrupole parameter of the body -/
def psi4SS (X1 X2 χ1 χ2 q1 q2 : ℝ) : ℝ :=
  -(1185 / 12) * (X1 * X2) * χ1 * χ2 - (50 * q1 + 5 / 8) * X1 ^ 2 * χ1 ^ 2 - (50 * q2 + 5 / 8) * X2 ^ 2 * χ2 ^ 2
/-- coefficient of v^5 (2.5PN); the full term is `psi5 * (1 + 3 log v)` -/
def psi5 (η δ χs χa : ℝ) : ℝ := π * (38645 / 756 - 65 / 9 * η)
  - ((732985 / 2268 - 24260 / 81 * η - 340 / 9 * η ^ 2) * χs + (732985 / 2268 + 140 / 9 * η) * δ * χa)
/-- coefficient of v^6 (3PN), point particle and spin-orbit tail; `L = log (4 v)`, `γ` Euler's constant -/
def psi6 (γ L η δ χs χa : ℝ) : ℝ := 11583231236531 / 4694215680 - 640 / 3 * π ^ 2 - 6848 / 21 * (γ + L)
  + (-(15737765635 / 3048192) + 2255 / 12 * π ^ 2) * η + 76055 / 1728 * η ^ 2 - 127825 / 1296 * η ^ 3
  + π * ((2270 / 3 - 520 * η) * χs + 2270 / 3 * δ * χa)
/-- spin-spin and quadrupole terms at v^6 -/
def psi6SS (X1 X2 χ1 χ2 q1 q2 : ℝ) : ℝ :=
  (32675 / 112 + 5575 / 18 * (X1 * X2)) * (X1 * X2) * χ1 * χ2
  + ((47035 / 84 + 2935 / 6 * X1 - 120 * X1 ^ 2) * q1 + (-(410825 / 672) - 1085 / 12 * X1 + 1255 / 36 * X1 ^ 2))
      * X1 ^ 2 * χ1 ^ 2
  + ((47035 / 84 + 2935 / 6 * X2 - 120 * X2 ^ 2) * q2 + (-(410825 / 672) - 1085 / 12 * X2 + 1255 / 36 * X2 ^ 2))
      * X2 ^ 2 * χ2 ^ 2
/-- coefficient of v^7 (3.5PN) -/
def psi7 (η δ χs χa : ℝ) : ℝ := π * (77096675 / 254016 + 378515 / 1512 * η - 74045 / 756 * η ^ 2)
  + (-(25150083775 / 3048192) + 10566655595 / 762048 * η - 1042165 / 3024 * η ^ 2 + 5345 / 36 * η ^ 3) * χs
  + (-(25150083775 / 3048192) + 26804935 / 6048 * η - 1985 / 48 * η ^ 2) * δ * χa

/-- difference parameter δΛ̃ of Wade et al. in terms of masses: only used through its product with `delta` -/
def deltaLambdaTilde (m1 l1 m2 l2 : ℝ) : ℝ :=
  let η := eta m1 m2
  let δ := delta m1 m2
  1 / 2 * (δ * (1 - 13272 / 1319 * η + 8944 / 1319 * η ^ 2) * (l1 + l2)
    + (1 - 15910 / 1319 * η + 32850 / 1319 * η ^ 2 + 3380 / 1319 * η ^ 3) * (l1 - l2))

/-- coefficient of v^10 (5PN tidal) -/
def psi10 (m1 l1 m2 l2 : ℝ) : ℝ := -(39 / 2) * lambdaTilde m1 l1 m2 l2
/-- coefficient of v^12 (6PN tidal) -/
def psi12 (m1 l1 m2 l2 : ℝ) : ℝ :=
  -(3115 / 64) * lambdaTilde m1 l1 m2 l2 + 6595 / 364 * delta m1 m2 * deltaLambdaTilde m1 l1 m2 l2

/-- coefficient of v^13 (6.5PN tidal tail) -/
def psi13 (m1 l1 m2 l2 : ℝ) : ℝ := 39 / 2 * π * lambdaTilde m1 l1 m2 l2
/-- coefficient of v^14 (7PN tidal) of one body: mass fraction `X`, deformability `l` (Damour, Nagar, Villain 2012) -/
def psi14 (X l : ℝ) : ℝ := -5 * X ^ 4 * l * (193986935 / 571536 - 14415613 / 381024 * X - 57859 / 378 * X ^ 2
  - 209495 / 1512 * X ^ 3 + 965 / 54 * X ^ 4 - 4 * X ^ 5)

/-- the stationary-phase phase at frequency `f` (Hz) for masses in solar masses, aligned spins, tidal deformabilities and
    quadrupole parameters `q1`, `q2` -/
def f2Phase (m1 m2 χ1 χ2 l1 l2 q1 q2 f : ℝ) : ℝ :=
  let η := eta m1 m2
  let δ := delta m1 m2
  let χs := (χ1 + χ2) / 2
  let χa := (χ1 - χ2) / 2
  let X1 := m1 / (m1 + m2)
  let X2 := m2 / (m1 + m2)
  let v := (π * ((m1 + m2) * gt) * f) ^ ((1 : ℝ) / 3)
  3 / (128 * η * v ^ 5) * (1 + psi2 η * v ^ 2 + psi3 η δ χs χa * v ^ 3
    + (psi4 η + psi4SS X1 X2 χ1 χ2 q1 q2) * v ^ 4
    + psi5 η δ χs χa * (1 + 3 * log v) * v ^ 5
    + (psi6 EulerGamma (log (4 * v)) η δ χs χa + psi6SS X1 X2 χ1 χ2 q1 q2) * v ^ 6
    + psi7 η δ χs χa * v ^ 7
    + psi10 m1 l1 m2 l2 * v ^ 10 + psi12 m1 l1 m2 l2 * v ^ 12 + psi13 m1 l1 m2 l2 * v ^ 13
    + (psi14 X1 l1 + psi14 X2 l2) * v ^ 14)

/-- modulus of the Newtonian stationary-phase strain, chirp mass `Mc` in solar masses, `D` in Mpc, `f` in Hz -/
def newtonianAmp (Mc D f : ℝ) : ℝ :=
  sqrt (5 / 24) * π ^ (-(2 / 3) : ℝ) * (Mc * MRSUN) * (Mc * gt) * (Mc * gt * f) ^ (-(7 / 6) : ℝ) / (D * m_per_Mpc)

end
end Ripple.Spec

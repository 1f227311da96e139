/-
  The delay IMRPhenomXAS builds into its phase.
-/
import Mathlib.Analysis.Real.Pi.Bounds

namespace Ripple
namespace XAS
noncomputable section

/-- the fitted time of the peak of the strain, in total masses: 500 + (peak of psi4 to peak of the strain) - (time shift).
    `e` is the symmetric mass ratio, `S` the mean spin weighted by the squared masses, `x` the spin difference times the mass
    difference over the total mass. -/
def peakDelay (e S x : ℝ) : ℝ :=
  500 + (13.39320482758057 - 175.42481512989315 * e + 2097.425116152503 * e ^ 2 - 9862.84178637907 * e ^ 3
      + 16026.897939722587 * e ^ 4
      + (4.7895602776763 - 163.04871764530466 * e + 609.5575850476959 * e ^ 2) * S
      + (1.3934428041390161 - 97.51812681228478 * e + 376.9200932531847 * e ^ 2) * S ^ 2
      + (15.649521097877374 + 137.33317057388916 * e - 755.9566456906406 * e ^ 2) * S ^ 3
      + (13.097315867845788 + 149.30405703643288 * e - 764.5242164872267 * e ^ 2) * S ^ 4
      + 105.37711654943146 * x * e ^ 2)
    - (3155.1635543201924 + 1257.9949740608242 * e - 32243.28428870599 * e ^ 2 + 347213.65466875216 * e ^ 3
      - 1922385.1649491738 * e ^ 4 + 5303591.1346921865 * e ^ 5 - 5789128.656876938 * e ^ 6
      + (-24.181508118588667 + 115.49264174560281 * e - 380.19778216022763 * e ^ 2) * S
      + (24.72585609641552 - 328.3762360751952 * e + 725.6024119989094 * e ^ 2) * S ^ 2
      + (23.404604124552 - 646.3410199799737 * e + 1941.8836639529036 * e ^ 2) * S ^ 3
      + (-12.814828278938885 - 325.92980012408367 * e + 1320.102640190539 * e ^ 2) * S ^ 4
      - 148.17317525117338 * x * e ^ 2) / (2 * Real.pi)

end
end XAS
end Ripple

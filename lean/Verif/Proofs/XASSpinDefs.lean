/-
  Pieces of the IMRPhenomXAS amplitude as rational functions, for the numerical bounds on spinning binaries: `e` is the
  symmetric mass ratio, `d` the mass difference over the total mass, `x`, `y` the spins, `S` a spin average, `k` the spin
  difference times `d`, `p` stands for π.
-/
import Verif.Prelude.AffineTac
import Verif.Proofs.XASPhys

namespace Ripple
namespace XAS
open Real

/-- amplitude fit of the shipped table: first inspiral node -/
noncomputable def spF0 (e S k : ℝ) : ℝ :=
  (-0.015178276424448592 + e * (-0.06098548699809163 + 0.4845148547154606 * e)) / (1 + 0.09799277215675059 * e)
    + S * ((0.02300153747158323 + e * (0.10495263104245876 * e)) + S * ((0.01761591799745109 + e * ((-0.14404522791467844) * e)) + S * (e * (0.04834642258922544 + (-0.14189350657140673) * e)))) / (1 + S * (-0.7340448493183307))
    + k * (e * (e * (e * (e * (0.0018724905795891192 + 34.90874132485147 * e)))))
/-- amplitude fit of the shipped table: second inspiral node -/
noncomputable def spF1 (e S k : ℝ) : ℝ :=
  (-0.058572000924124644 + e * (-1.1970535595488723 + 8.4630293045015 * e)) / (1 + 15.430818840453686 * e)
    + S * ((-0.08746408292050666 + e * (-0.20646621646484237 + 0.788717372588848 * e)) + S * (-0.018924013869130434 + e * (-0.21291764491897636 + 0.8282888482429105 * e))) / (-1.332123330797879 + S * (1))
    + k * (e * (e * (e * (e * (0.004389995099201855 + 105.84553997647659 * e)))))
/-- amplitude fit of the shipped table: third inspiral node -/
noncomputable def spF2 (e S k : ℝ) : ℝ :=
  (-0.16212854591357853 + e * (1.617404703616985 + e * (-3.186012733446088 + 5.629598195000046 * e))) / (1 + 0.04507019231274476 * e)
    + S * ((1.0055835408962206 + e * (-4.127597118865669 + e * (18.353433894421833 + (-41.0378120175805) * e))) + S * (-0.31443470118113853 + e * (5.215501942120774 + e * (-18.80590889704093 + 19.099315016873643 * e)))) / (5.852706459485663 + S * (-5.717874483424523 + 1 * S))
    + k * (e * (e * (e * (e * (0.05575955418803233 + 208.92352600701068 * e)))))
/-- amplitude fit of the shipped table: halfway between the regions -/
noncomputable def spMid (e S k : ℝ) : ℝ :=
  (1.4873184918202145 + e * (1974.6112656679577 + e * (27563.641024162127 + (-19837.908020966777) * e))) / (1 + e * (143.29004876335128 + 458.4097306093354 * e))
    + S * ((27.952730865904343 + e * (-365.55631765202895 + e * (1612.2681322644232 * e))) + S * ((3.2646808851249016 + e * (-260.3494489873286 + e * (3011.446602208493 + (-6962.675551371755) * e))) + S * (-19.38970173389662 + e * (e * (1486.4658089990298 * e))))) / (12.647425554323242 + S * (-10.540154508599963 + 1 * S))
    + k * (e * (e * (-0.016404056649860943 + (-296.473359655246) * e)))
/-- amplitude fit of the shipped table: `gamma2` -/
noncomputable def spG2 (e S k : ℝ) : ℝ :=
  (0.8312293675316895 + e * (7.480371544268765 + (-18.256121237800397) * e)) / (1 + e * (10.915453595496611 + (-30.578409433912874) * e))
    + S * ((0.5869408584532747 + e * (-0.1467158405070222 + 0.25295441250444334 * e)) + S * (0.031852563636196894 + e * (-2.8489481072076472 + 4.6849496672664594 * e))) / (3.8775263105069953 + S * (-3.41755361841226 + 1 * S))
    + k * ((-0.00548054788508203) * e)
/-- amplitude fit of the shipped table: `gamma3` -/
noncomputable def spG3 (e S : ℝ) : ℝ :=
  (1.3666000000000007 + e * (-4.091333144596439 + e * (2.109081209912545 + (-4.222259944408823) * e))) / (1 + (-2.7440263888207594) * e)
    + S * ((0.07179105336478316 + e * (-0.8752427297525086 + 2.331724812782498 * e)) + S * (-0.05633734476062242 + e * (0.4168560229353532 + (-0.6330998412809531) * e)))
/-- amplitude fit of the shipped table: `v1RD` -/
noncomputable def spV (e S k : ℝ) : ℝ :=
  (0.03689164742964719 + e * (25.417967754401182 + 162.52904393600332 * e)) / (1 + e * (61.19874463331437 + (-29.628854485544874) * e))
    + S * ((-0.14352506969368556 + e * (-4.805034453745424 + e * (27.675454081988036 + (-48.31945248941757) * e))) + S * ((0.026356911108320547 + e * (1.11147906765112 + e * (-2.398327419614959 + (-3.751501972663298) * e))) + S * ((0.19967405175523437 + e * (6.176053843938542 + e * (-47.99096500250743 + 81.9290740950083 * e))) + S * ((-0.05292913111731128 + e * (-0.2874540719094058 + e * (-5.104257870393138 + 30.491948143930266 * e))) + S * (-0.18147275151697131 + e * (-8.990840289951514 + e * (72.08174136362386 + (-132.77982622925845) * e))))))) / (-1.4160870461211452 + S * (1))
    + k * (e * ((-0.04426571511345366) * e))
noncomputable def spA3 (e d x y : ℝ) : ℝ :=
  (81 * (x + y + (x - y) * d) - 44 * (x + y) * e) / 48
noncomputable def spA4 (e d x y : ℝ) : ℝ :=
  (-27312085 - 10287648 * x ^ 2 * (1 + d) + 24 * (428652 * y ^ 2 * (-1 + d) + (-1975055 +
      10584 * (81 * x ^ 2 - 94 * x * y + 81 * y ^ 2)) * e + 1473794 * e ^ 2)) / 8128512
noncomputable def spA5 (e d x y p : ℝ) : ℝ :=
  ((-6048) * x ^ 3 * (-1 - d + (3 + d) * e) + y * (-((287213 + 6048 * y ^ 2) *
      (-1 + d)) + 4 * (-93414 + 1512 * y ^ 2 * (-3 + d) + 2083 * d) * e - 35632 * e ^ 2) + x * (287213
      * (1 + d) - 4 * e * (93414 + 2083 * d + 8908 * e)) + 42840 * (-1 + 4 * e) * p) / 32256
noncomputable def spA6 (e d x y p : ℝ) : ℝ :=
  (-1242641879927 + 12 * (28 * (-3248849057 + 11088 * (163199 * x ^ 2 - 266498 * x * y + 163199
      * y ^ 2)) * e ^ 2 + 27026893936 * e ^ 3 - 116424 * (147117 * (-(y ^ 2 * (-1 + d)) + x ^ 2 * (1 +
      d)) + 60928 * (x + y + (x - y) * d) * p) + e * (545384828789 - 77616 * (638642 * x *
      y + x ^ 2 * (-158633 + 282718 * d) - y ^ 2 * (158633 + 282718 * d) - 107520 * (x + y) * p +
      275520 * p ^ 2)))) / 241472 / 248832

end XAS
end Ripple

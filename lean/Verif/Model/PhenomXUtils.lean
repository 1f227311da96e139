/-
  Model of src/ripplegw/waveforms/IMRPhenomX_utils.py.
-/
import Verif.Model.PhenomDUtils
import Mathlib.Data.Real.Sign

namespace Ripple
namespace XAS
noncomputable section

/-- `fM_CUT`. src/ripplegw/waveforms/IMRPhenomX_utils.py:10. -/
def fM_CUT : ℝ := 0.3

/-- Coefficient arrays (two-dimensional JAX arrays, row, column). Only in-range entries are read. -/
abbrev Table := ℕ → ℕ → ℝ

/-- the tuple returned by `get_cutoff_fMs` -/
structure Cutoffs where
  fRD : ℝ
  fdamp : ℝ
  fMECO : ℝ
  fISCO : ℝ

/-- `a`, the dimensionless final spin of `get_cutoff_fMs`. src/ripplegw/waveforms/IMRPhenomX_utils.py:48-97. -/
def finalSpin (eta_s delta mm1 mm2 StotR dchi : ℝ) : ℝ :=
  let eta2 : ℝ := eta_s * eta_s
  let eta3 : ℝ := eta2 * eta_s
  let StotR2 : ℝ := StotR * StotR
  let StotR3 : ℝ := StotR2 * StotR
  let dchi2 : ℝ := dchi * dchi
  (3.4641016151377544 * eta_s + 20.0830030082033 * eta2 - 12.333573402277912 * eta3) / (1 + 7.2388440419467335 *
    eta_s) + ((mm1 ^ 2 + mm2 ^ 2) * StotR + (((-0.8561951310209386) * eta_s - 0.09939065676370885 * eta2 +
    1.668810429851045 * eta3) * StotR + (0.5881660363307388 * eta_s - 2.149269067519131 * eta2 + 3.4768263932898678 *
    eta3) * StotR2 + (0.142443244743048 * eta_s - 0.9598353840147513 * eta2 + 1.9595643107593743 * eta3) * StotR3) / (1
    + (-0.9142232693081653 + 2.3191363426522633 * eta_s - 9.710576749140989 * eta3) * StotR)) + (0.3223660562764661 *
    dchi * delta * (1 + 9.332575956437443 * eta_s) * eta2 - 0.059808322561702126 * dchi2 * eta3 + 2.3170397514509933 *
    dchi * delta * (1 - 3.2624649875884852 * eta_s) * eta3 * StotR)

/-- `Erad`, the radiated energy of `get_cutoff_fMs`. src/ripplegw/waveforms/IMRPhenomX_utils.py:99-142. -/
def eRad (eta_s delta StotR dchi : ℝ) : ℝ :=
  let eta2 : ℝ := eta_s * eta_s
  let eta3 : ℝ := eta2 * eta_s
  let eta4 : ℝ := eta3 * eta_s
  let StotR2 : ℝ := StotR * StotR
  let StotR3 : ℝ := StotR2 * StotR
  let dchi2 : ℝ := dchi * dchi
  (0.057190958417936644 * eta_s + 0.5609904135313374 * eta2 - 0.84667563764404 * eta3 + 3.145145224278187 * eta4) * (1
    + (-0.13084389181783257 - 1.1387311580238488 * eta_s + 5.49074464410971 * eta2) * StotR + (-0.17762802148331427 +
    2.176667900182948 * eta2) * StotR2 + (-0.6320191645391563 + 4.952698546796005 * eta_s - 10.023747993978121 * eta2) *
    StotR3) / (1 + (-0.9919475346968611 + 0.367620218664352 * eta_s + 4.274567337924067 * eta2) * StotR) +
    ((-0.09803730445895877) * dchi * delta * (1 - 3.2283713377939134 * eta_s) * eta2 + 0.01118530335431078 * dchi2 *
    eta3 - 0.01978238971523653 * dchi * delta * (1 - 4.91667749015812 * eta_s) * eta_s * StotR)

/-- `fRD` of `get_cutoff_fMs`. src/ripplegw/waveforms/IMRPhenomX_utils.py:146-172. -/
def fRDof (a Erad : ℝ) : ℝ :=
  let a2 : ℝ := a * a
  let a3 : ℝ := a2 * a
  let a4 : ℝ := a3 * a
  let a5 : ℝ := a4 * a
  let a6 : ℝ := a5 * a
  let a7 : ℝ := a6 * a
  (0.05947169566573468 - 0.14989771215394762 * a + 0.09535606290986028 * a2 + 0.02260924869042963 * a3 -
    0.02501704155363241 * a4 - 0.005852438240997211 * a5 + 0.0027489038393367993 * a6 + 0.0005821983163192694 * a7) / (1
    - 2.8570126619966296 * a + 2.373335413978394 * a2 - 0.6036964688511505 * a4 + 0.0873798215084077 * a6) / (1 - Erad)

/-- `fdamp` of `get_cutoff_fMs`. src/ripplegw/waveforms/IMRPhenomX_utils.py:146-151,175-192. -/
def fdampOf (a Erad : ℝ) : ℝ :=
  let a2 : ℝ := a * a
  let a3 : ℝ := a2 * a
  let a4 : ℝ := a3 * a
  let a5 : ℝ := a4 * a
  let a6 : ℝ := a5 * a
  (0.014158792290965177 - 0.036989395871554566 * a + 0.026822526296575368 * a2 + 0.0008490933750566702 * a3 -
    0.004843996907020524 * a4 - 0.00014745235759327472 * a5 + 0.0001504546201236794 * a6) / (1 - 2.5900842798681376 * a
    + 1.8952576220623967 * a2 - 0.31416610693042507 * a4 + 0.009002719412204133 * a6) / (1 - Erad)

open Classical in
/-- `rISCO` of `get_cutoff_fMs`. src/ripplegw/waveforms/IMRPhenomX_utils.py:194-197. -/
def rISCOof (a : ℝ) : ℝ :=
  let a2 : ℝ := a * a
  let Z1 : ℝ := 1 + Jnp.cbrt (1 - a2) * (Jnp.cbrt (1 + a) + Jnp.cbrt (1 - a))
  let Z1 : ℝ := if Z1 > 3 then 3 else Z1
  let Z2 : ℝ := Real.sqrt (3 * a2 + Z1 * Z1)
  3 + Z2 - Real.sign a * Real.sqrt ((3 - Z1) * (3 + Z1 + 2 * Z2))

/-- `fISCO` of `get_cutoff_fMs`. src/ripplegw/waveforms/IMRPhenomX_utils.py:198-201. -/
def fISCOof (a : ℝ) : ℝ :=
  let rISCO : ℝ := rISCOof a
  let rISCOsq : ℝ := Real.sqrt rISCO
  let rISCO3o2 : ℝ := rISCOsq * rISCOsq * rISCOsq
  let OmegaISCO : ℝ := 1 / (rISCO3o2 + a)
  OmegaISCO / PI

/-- `fMECO` of `get_cutoff_fMs`. src/ripplegw/waveforms/IMRPhenomX_utils.py:203-283. -/
def fMECOof (eta_s delta S dchi : ℝ) : ℝ :=
  let eta2 : ℝ := eta_s * eta_s
  let eta3 : ℝ := eta2 * eta_s
  let eta4 : ℝ := eta3 * eta_s
  let S2 : ℝ := S * S
  let S3 : ℝ := S2 * S
  let dchi2 : ℝ := dchi * dchi
  (0.018744340279608845 + 0.0077903147004616865 * eta_s + 0.003940354686136861 * eta2 - 0.00006693930988501673 * eta3)
    / (1 - 0.10423384680638834 * eta_s) + S * (0.00027180386951683135 - 0.00002585252361022052 * S + eta4 *
    (-0.0006807631931297156 + 0.022386313074011715 * S - 0.0230825153005985 * S2) + eta2 * (0.00036556167661117023 -
    0.000010021140796150737 * S - 0.00038216081981505285 * S2) + eta_s * (0.00024422562796266645 -
    0.00001049013062611254 * S - 0.00035182990586857726 * S2) + eta3 * (-0.0005418851224505745 + 0.000030679548774047616
    * S + 4.038390455349854e-6 * S2) - 0.00007547517256664526 * S2) / (0.026666543809890402 + (-0.014590539285641243 -
    0.012429476486138982 * eta_s + 1.4861197211952053 * eta4 + 0.025066696514373803 * eta2 + 0.005146809717492324 *
    eta3) * S + (-0.0058684526275074025 - 0.02876774751921441 * eta_s - 2.551566872093786 * eta4 - 0.019641378027236502
    * eta2 - 0.001956646166089053 * eta3) * S2 + (0.003507640638496499 + 0.014176504653145768 * eta_s + 1 * eta4 +
    0.012622225233586283 * eta2 - 0.00767768214056772 * eta3) * S3) + (dchi2 * (0.00034375176678815234 +
    0.000016343732281057392 * eta_s) * eta2 + dchi * delta * eta_s * (0.08064665214195679 * eta2 + eta_s *
    (-0.028476219509487793 - 0.005746537021035632 * S) - 0.0011713735642446144 * S))

/-- `get_cutoff_fMs`. src/ripplegw/waveforms/IMRPhenomX_utils.py:13-286 (the fits are split off above under the names of their local variables). -/
def get_cutoff_fMs (m1 m2 chi1 chi2 : ℝ) : Cutoffs :=
  let m1_s : ℝ := m1 * gt
  let m2_s : ℝ := m2 * gt
  let M_s : ℝ := m1_s + m2_s
  let eta_s : ℝ := m1_s * m2_s / M_s ^ 2
  let delta : ℝ := Real.sqrt (1 - 4 * eta_s)
  let mm1 : ℝ := 0.5 * (1 + delta)
  let mm2 : ℝ := 0.5 * (1 - delta)
  let chi_eff : ℝ := mm1 * chi1 + mm2 * chi2
  let S : ℝ := (chi_eff - 38 / 113 * eta_s * (chi1 + chi2)) / (1 - 76 * eta_s / 113)
  let dchi : ℝ := chi1 - chi2
  let StotR : ℝ := (mm1 ^ 2 * chi1 + mm2 ^ 2 * chi2) / (mm1 ^ 2 + mm2 ^ 2)
  let a : ℝ := finalSpin eta_s delta mm1 mm2 StotR dchi
  let Erad : ℝ := eRad eta_s delta StotR dchi
  ⟨fRDof a Erad, fdampOf a Erad, fMECOof eta_s delta S dchi, fISCOof a⟩

/-- `calc_phaseatpeak`. src/ripplegw/waveforms/IMRPhenomX_utils.py:289-355. Returns `(lina, linb, psi4tostrain)`. -/
def calc_phaseatpeak (eta S chia delta : ℝ) : ℝ × ℝ × ℝ :=
  let lina : ℝ := 0
  let linb : ℝ := 3155.1635543201924 + 1257.9949740608242 * eta - 32243.28428870599 * eta ^ 2 + 347213.65466875216 *
    eta ^ 3 - 1.9223851649491738e6 * eta ^ 4 + 5.3035911346921865e6 * eta ^ 5 - 5.789128656876938e6 * eta ^ 6 +
    ((-24.181508118588667 + 115.49264174560281 * eta - 380.19778216022763 * eta ^ 2) * S + (24.72585609641552 -
    328.3762360751952 * eta + 725.6024119989094 * eta ^ 2) * S ^ 2 + (23.404604124552 - 646.3410199799737 * eta +
    1941.8836639529036 * eta ^ 2) * S ^ 3 + (-12.814828278938885 - 325.92980012408367 * eta + 1320.102640190539 * eta ^
    2) * S ^ 4) + (-148.17317525117338) * chia * delta * eta ^ 2
  let psi4tostrain : ℝ := 13.39320482758057 - 175.42481512989315 * eta + 2097.425116152503 * eta ^ 2 -
    9862.84178637907 * eta ^ 3 + 16026.897939722587 * eta ^ 4 + ((4.7895602776763 - 163.04871764530466 * eta +
    609.5575850476959 * eta ^ 2) * S + (1.3934428041390161 - 97.51812681228478 * eta + 376.9200932531847 * eta ^ 2) * S
    ^ 2 + (15.649521097877374 + 137.33317057388916 * eta - 755.9566456906406 * eta ^ 2) * S ^ 3 + (13.097315867845788 +
    149.30405703643288 * eta - 764.5242164872267 * eta ^ 2) * S ^ 4) + 105.37711654943146 * chia * delta * eta ^ 2
  (lina, linb, psi4tostrain)

/-- `nospin_CV`. src/ripplegw/waveforms/IMRPhenomX_utils.py:358-375. -/
def nospin_CV (NoSpin_coeffs : ℕ → ℝ) (eta : ℝ) : ℝ :=
  let eta2 : ℝ := eta * eta
  let eta3 : ℝ := eta2 * eta
  let eta4 : ℝ := eta3 * eta
  let eta5 : ℝ := eta4 * eta
  (NoSpin_coeffs 0 + NoSpin_coeffs 1 * eta + NoSpin_coeffs 2 * eta2 + NoSpin_coeffs 3 * eta3 + NoSpin_coeffs 4 * eta4
    + NoSpin_coeffs 5 * eta5) / (NoSpin_coeffs 6 + NoSpin_coeffs 7 * eta + NoSpin_coeffs 8 * eta2 + NoSpin_coeffs 9 *
    eta3)


/-- `Eqspin_CV`. src/ripplegw/waveforms/IMRPhenomX_utils.py:378-430. -/
def Eqspin_CV (EqSpin_coeffs : ℕ → ℝ) (eta S : ℝ) : ℝ :=
  let eta2 : ℝ := eta * eta
  let eta3 : ℝ := eta2 * eta
  let eta4 : ℝ := eta3 * eta
  let S2 : ℝ := S * S
  let S3 : ℝ := S2 * S
  let S4 : ℝ := S3 * S
  let numerator : ℝ := S * (EqSpin_coeffs 0 + EqSpin_coeffs 1 * S + EqSpin_coeffs 2 * S2 + EqSpin_coeffs 3 * S3 +
    EqSpin_coeffs 4 * S4 + eta * (EqSpin_coeffs 5 + EqSpin_coeffs 6 * S + EqSpin_coeffs 7 * S2 + EqSpin_coeffs 8 * S3 +
    EqSpin_coeffs 9 * S4) + eta2 * (EqSpin_coeffs 10 + EqSpin_coeffs 11 * S + EqSpin_coeffs 12 * S2 + EqSpin_coeffs 13 *
    S3 + EqSpin_coeffs 14 * S4) + eta3 * (EqSpin_coeffs 15 + EqSpin_coeffs 16 * S + EqSpin_coeffs 17 * S2 +
    EqSpin_coeffs 18 * S3 + EqSpin_coeffs 19 * S4) + eta4 * (EqSpin_coeffs 20 + EqSpin_coeffs 21 * S + EqSpin_coeffs 22
    * S2 + EqSpin_coeffs 23 * S3 + EqSpin_coeffs 24 * S4))
  let denominator : ℝ := EqSpin_coeffs 25 + EqSpin_coeffs 26 * S + EqSpin_coeffs 27 * S2 + EqSpin_coeffs 28 * S3
  numerator / denominator


/-- `Uneqspin_CV`. src/ripplegw/waveforms/IMRPhenomX_utils.py:433-456. -/
def Uneqspin_CV (EqSpin_coeffs : ℕ → ℝ) (eta S chia : ℝ) : ℝ :=
  let chia2 : ℝ := chia * chia
  let delta : ℝ := Real.sqrt (1 - 4 * eta)
  let eta2 : ℝ := eta * eta
  let eta3 : ℝ := eta2 * eta
  let eta4 : ℝ := eta3 * eta
  let eta5 : ℝ := eta4 * eta
  chia * delta * eta * (EqSpin_coeffs 0 + EqSpin_coeffs 1 * eta + EqSpin_coeffs 2 * eta2 + EqSpin_coeffs 3 * eta3 +
    EqSpin_coeffs 4 * eta4 + EqSpin_coeffs 5 * eta5 + EqSpin_coeffs 6 * S + EqSpin_coeffs 7 * S * eta2 + EqSpin_coeffs 8
    * S * eta3) + EqSpin_coeffs 9 * chia2 * eta


/-- `Amp_Nospin_CV`. src/ripplegw/waveforms/IMRPhenomX_utils.py:459-468. -/
def Amp_Nospin_CV (NoSpin_coeffs : ℕ → ℝ) (eta : ℝ) : ℝ :=
  let numerator : ℝ := NoSpin_coeffs 0 + NoSpin_coeffs 1 * eta + NoSpin_coeffs 2 * eta ^ 2 + NoSpin_coeffs 3 * eta ^ 3
    + NoSpin_coeffs 4 * eta ^ 4
  let denominator : ℝ := NoSpin_coeffs 5 + NoSpin_coeffs 6 * eta + NoSpin_coeffs 7 * eta ^ 2
  numerator / denominator


/-- `Amp_Eqspin_CV`. src/ripplegw/waveforms/IMRPhenomX_utils.py:471-521. -/
def Amp_Eqspin_CV (EqSpin_coeffs : ℕ → ℝ) (eta S : ℝ) : ℝ :=
  let numeratorS0 : ℝ := EqSpin_coeffs 0 + EqSpin_coeffs 1 * eta + EqSpin_coeffs 2 * eta ^ 2 + EqSpin_coeffs 3 * eta ^
    3
  let numeratorS1 : ℝ := EqSpin_coeffs 4 + EqSpin_coeffs 5 * eta + EqSpin_coeffs 6 * eta ^ 2 + EqSpin_coeffs 7 * eta ^
    3
  let numeratorS2 : ℝ := EqSpin_coeffs 8 + EqSpin_coeffs 9 * eta + EqSpin_coeffs 10 * eta ^ 2 + EqSpin_coeffs 11 * eta
    ^ 3
  let numeratorS3 : ℝ := EqSpin_coeffs 12 + EqSpin_coeffs 13 * eta + EqSpin_coeffs 14 * eta ^ 2 + EqSpin_coeffs 15 *
    eta ^ 3
  let numeratorS4 : ℝ := EqSpin_coeffs 16 + EqSpin_coeffs 17 * eta + EqSpin_coeffs 18 * eta ^ 2 + EqSpin_coeffs 19 *
    eta ^ 3
  let numeratorS5 : ℝ := EqSpin_coeffs 20 + EqSpin_coeffs 21 * eta + EqSpin_coeffs 22 * eta ^ 2 + EqSpin_coeffs 23 *
    eta ^ 3
  let denominator : ℝ := EqSpin_coeffs 24 + EqSpin_coeffs 25 * S + EqSpin_coeffs 26 * eta + EqSpin_coeffs 27 * S ^ 2
  (numeratorS0 + numeratorS1 * S + numeratorS2 * S ^ 2 + numeratorS3 * S ^ 3 + numeratorS4 * S ^ 4 + numeratorS5 * S ^
    5) / denominator


/-- `Amp_Uneqspin_CV`. src/ripplegw/waveforms/IMRPhenomX_utils.py:524-537. -/
def Amp_Uneqspin_CV (UneqSpin_coeffs : ℕ → ℝ) (eta S chia : ℝ) : ℝ :=
  let delta : ℝ := Real.sqrt (1 - 4 * eta)
  chia * delta * (UneqSpin_coeffs 0 + UneqSpin_coeffs 1 * eta + UneqSpin_coeffs 2 * eta ^ 2 + UneqSpin_coeffs 3 * eta
    ^ 3 + UneqSpin_coeffs 4 * eta ^ 4 + UneqSpin_coeffs 5 * eta ^ 5)


/-- rows of `PhenomX_amp_coeff_table`. src/ripplegw/waveforms/IMRPhenomX_utils.py:540-851. -/
def PhenomX_amp_coeff_table_rows : List (List ℝ) :=
  [[-0.015178276424448592, -0.06098548699809163, 0.4845148547154606, 0, 0, 1, 0.09799277215675059, 0, 0, 0, 0, 0,
     0.02300153747158323, 0, 0.10495263104245876, 0, 0.01761591799745109, 0, -0.14404522791467844, 0, 0,
     0.04834642258922544, -0.14189350657140673, 0, 0, 0, 0, 0, 0, 0, 0, 0, 1, -0.7340448493183307, 0, 0, 0, 0, 0, 0,
     0.0018724905795891192, 34.90874132485147],
   [-0.058572000924124644, -1.1970535595488723, 8.4630293045015, 0, 0, 1, 15.430818840453686, 0, 0, 0, 0, 0,
     -0.08746408292050666, -0.20646621646484237, 0.788717372588848, 0, -0.018924013869130434, -0.21291764491897636,
     0.8282888482429105, 0, 0, 0, 0, 0, 0, 0, 0, 0, 0, 0, 0, 0, -1.332123330797879, 1, 0, 0, 0, 0, 0, 0,
     0.004389995099201855, 105.84553997647659],
   [-0.16212854591357853, 1.617404703616985, -3.186012733446088, 5.629598195000046, 0, 1, 0.04507019231274476, 0, 0,
     0, 0, 0, 1.0055835408962206, -4.127597118865669, 18.353433894421833, -41.0378120175805, -0.31443470118113853,
     5.215501942120774, -18.80590889704093, 19.099315016873643, 0, 0, 0, 0, 0, 0, 0, 0, 0, 0, 0, 0, 5.852706459485663,
     -5.717874483424523, 0, 1, 0, 0, 0, 0, 0.05575955418803233, 208.92352600701068],
   [1.4873184918202145, 1974.6112656679577, 27563.641024162127, -19837.908020966777, 0, 1, 143.29004876335128,
     458.4097306093354, 0, 0, 0, 0, 27.952730865904343, -365.55631765202895, 0, 1612.2681322644232, 3.2646808851249016,
     -260.3494489873286, 3011.446602208493, -6962.675551371755, -19.38970173389662, 0, 0, 1486.4658089990298, 0, 0, 0,
     0, 0, 0, 0, 0, 12.647425554323242, -10.540154508599963, 0, 1, 0, 0, -0.016404056649860943, -296.473359655246, 0, 0],
   [0.8312293675316895, 7.480371544268765, -18.256121237800397, 0, 0, 1, 10.915453595496611, -30.578409433912874, 0,
     0, 0, 0, 0.5869408584532747, -0.1467158405070222, 0.25295441250444334, 0, 0.031852563636196894,
     -2.8489481072076472, 4.6849496672664594, 0, 0, 0, 0, 0, 0, 0, 0, 0, 0, 0, 0, 0, 3.8775263105069953,
     -3.41755361841226, 0, 1, 0, -0.00548054788508203, 0, 0, 0, 0],
   [1.3666000000000007, -4.091333144596439, 2.109081209912545, -4.222259944408823, 0, 1, -2.7440263888207594, 0, 0, 0,
     0, 0, 0.07179105336478316, -0.8752427297525086, 2.331724812782498, 0, -0.05633734476062242, 0.4168560229353532,
     -0.6330998412809531, 0, 0, 0, 0, 0, 0, 0, 0, 0, 0, 0, 0, 0, 1, 0, 0, 0, 0, 0, 0, 0, 0, 0],
   [0.03689164742964719, 25.417967754401182, 162.52904393600332, 0, 0, 1, 61.19874463331437, -29.628854485544874, 0,
     0, 0, 0, -0.14352506969368556, -4.805034453745424, 27.675454081988036, -48.31945248941757, 0.026356911108320547,
     1.11147906765112, -2.398327419614959, -3.751501972663298, 0.19967405175523437, 6.176053843938542,
     -47.99096500250743, 81.9290740950083, -0.05292913111731128, -0.2874540719094058, -5.104257870393138,
     30.491948143930266, -0.18147275151697131, -8.990840289951514, 72.08174136362386, -132.77982622925845,
     -1.4160870461211452, 1, 0, 0, 0, 0, -0.04426571511345366, 0, 0, 0]]

/-- `PhenomX_amp_coeff_table` as an array. src/ripplegw/waveforms/IMRPhenomX_utils.py:540-851. -/
def PhenomX_amp_coeff_table : Table := fun i k => (PhenomX_amp_coeff_table_rows.getD i []).getD k 0

/-- rows of `PhenomX_phase_coeff_table`. src/ripplegw/waveforms/IMRPhenomX_utils.py:853-1519. -/
def PhenomX_phase_coeff_table_rows : List (List ℝ) :=
  [[-17294.000000000007, -19943.076428555978, 483033.0998073767, 0, 0, 0, 1, 4.460294035404433, 0, 0,
     68384.62786426462, 67663.42759836042, -2179.3505885609297, 19703.894135534803, 32614.091002011017,
     -58475.33302037833, 62190.404951852535, 18298.307770807573, -303141.1945565486, 0, -148368.4954044637,
     -758386.5685734496, -137991.37032619823, 1.0765877367729193e6, 0, 0, 0, 0, 0, 0, 0, 0, 0, 0, 0, 2.0412979553629143,
     1, 0, 0, 12017.062595934838, 0, 0, 0, 0, 0, 0, 0, 0, 0],
   [-7579.300000000004, -120297.86185566607, 1.1694356931282217e6, -557253.0066989232, 0, 0, 1, 18.53018618227582, 0,
     0, -27089.36915061857, -66228.9369155027, -44331.41741405198, 0, 0, 50644.13475990821, 157036.45676788126,
     126736.43159783827, 0, 0, 150022.21343386435, -50166.382087278434, -399712.22891153296, 0, 0, -593633.5370110178,
     -325423.99477314285, 847483.2999508682, 0, 0, 0, 0, 0, 0, 0, -1.5232497464826662, -3.062957826830017,
     -1.130185486082531, 1, 3843.083992827935, 0, 0, 0, 0, 0, 0, 0, 0, 0],
   [15415.000000000007, 873401.6255736464, 376665.64637025696, -3.9719980569125614e6, 8.913612508054944e6, 0, 1,
     46.83697749859996, 0, 0, 397951.95299014193, -207180.42746987, -130668.37221912303, 0, 0, -1.0053073129700898e6,
     1.235279439281927e6, -174952.69161683554, 0, 0, -1.9826323844247842e6, 208349.45742548333, 895372.155565861, 0, 0,
     4.662143741417853e6, -584728.050612325, -1.6894189124921719e6, 0, 0, 0, 0, 0, 0, 0, -9.675704197652225,
     3.5804521763363075, 2.5298346636273306, 1, -24708.109411857182, 24703.28267342699, 0, 0, 0, 0, 47752.17032707405,
     0, 0, -1296.9289110696955],
   [2439.000000000001, -31133.52170083207, 28867.73328134167, 0, 0, 0, 1, 0.41143032589262585, 0, 0,
     16116.057657391262, 9861.635308837876, 0, 0, 0, -82355.86732027541, -25843.06175439942, 0, 0, 0,
     229284.04542668918, 117410.37432997991, 0, 0, 0, -375818.0132734753, -386247.80765802023, 0, 0, 0, 0, 0, 0, 0, 0,
     -3.7385208695213668, 0.25294420589064653, 1, 0, 194.5554531509207, 0, 0, 0, 0, 0, 0, 0, 0, 0],
   [0, 0.9951733419499662, 101.21991715215253, 632.4731389009143, 0, 0, 0.00016803066316882238, 0.11412314719189287,
     1.8413983770369362, 1, 18.694178521101332, 16.89845522539974, 0.3612417066833153, 0, 0, -697.6773920613674, 0,
     -147.53381808989846, 0, 0, 0, 4941.31613710257, 0, 0, 0, 3531.552143264721, -14302.70838220423, 178.85850322465944,
     0, 0, 0, 0, 0, 0, 0, 2.965640445745779, -2.7706595614504725, 1, 0, 0, 356.74395864902294, 0, 0, 0, 0, 0, 0,
     1693.326644293169, 0],
   [0, -5.126358906504587, -227.46830225846668, 688.3609087244353, -751.4184178636324, 0, -0.004551938711031158,
     -0.7811680872741462, 1, 0, 0.1549280856660919, -0.9539250460041732, -2.84311102369862, 0, 0, 73.79645135116367, 0,
     -8.13494176717772, 0, 0, 0, -539.4071941841604, 0, 0, 0, -936.3740515136005, 1862.9097047992134,
     224.77581754671272, 0, 0, 0, 0, 0, 0, 0, -1.5308507364054487, 1, 0, 0, 0, 0, 0, 0, 0, 2993.3598520496153, 0, 0, 0,
     0],
   [-82.54500000000004, -5.58197349185435e6, -3.5225742421184325e8, 1.4667258334378073e9, 0, 0, 1, 66757.12830903867,
     5.385164380400193e6, 2.5176585751772933e6, 19.416719811164853, -36.066611959079935, -0.8612656616290079,
     5.95010003393006, 4.984750041013893, 207.69898051583655, -132.88417400679026, -17.671713040498304,
     29.071788188638315, 37.462217031512786, 170.97203068800542, -107.41099349364234, 0, -647.8103976942541, 0,
     -1365.1499998427248, 1152.425940764218, 415.7134909564443, 1897.5444343138167, -866.283566780576, 0, 0, 0, 0, 0,
     -1.1492259468169692, 1, 0, 0, 0, 0, 7343.130973149263, -20486.813161100774, 0, 0, 0, 515.9898508588834, 0, 0],
   [0.4248820426833804, -906.746595921514, -282820.39946006844, -967049.2793750163, 670077.5414916876, 0, 1,
     1670.9440812294847, 19783.077247023448, 0, 0.22814271667259703, 1.1366593671801855, 0.4818323187946999, 0, 0,
     12.840649528989287, 0, -61.17248283184154, 0, 0, -711.8532052499075, 269.9234918621958, 941.6974723887743, 0, 0,
     3499.432393555856, -877.8811492839261, -4974.189172654984, 0, 0, -4939.642457025497, -227.7672020783411,
     8745.201037897836, 0, 0, -1.2442293719740283, 1, 0, 0, 0, 0, -514.8494071830514, 1493.3851099678195, 0, 0, 0, 0, 0,
     0],
   [0, 0.7207992174994245, -1.237332073800276, 6.086871214811216, 0, 0, 0.006851189888541745, 0.06099184229137391,
     -0.15500218299268662, 1, 0.06519048552628343, 0, 0.20035146870472367, 0, -0.2697933899920511, -25.25397971063995,
     -5.215945111216946, -0.28745205203100666, 5.7756520242745735, 4.917070939324979, 58.59408241189781,
     153.95945758807616, 0, -43.97332874253772, -11.61488280763592, 160.14971486043524, -693.0504179144295, 0, 0, 0,
     -308.62513664956975, 835.1725103648205, -47.56042058800358, 338.7263666984089, -22.384949087140086, 1,
     -0.6628745847248266, 0, 0, 0, -23.504907495268824, 0, 0, 0, 0, 0, 0, 0, 0],
   [0, -9.460253118496386, 9.429314399633007, 64.69109972468395, 0, 0, -0.0670554310666559, -0.09987544893382533, 1,
     0, 0, 0, 0.04497628581617564, 0, 0, 17.36495157980372, 0, 0, 0, 0, -191.00932194869588, -62.997389062600035,
     64.42947340363101, 0, 0, 930.3458437154668, 808.457330742532, 0, 0, 0, -774.3633787391745, -2177.554979351284,
     -1031.846477275069, 0, 0, 1, -0.7267610313751913, 0, 0, 0, -36.66374091965371, 91.60477826830407, 0, 0, 0, 0, 0, 0,
     0],
   [0, -8.506898502692536, 13.936621412517798, 0, 0, 0, -0.40919671232073945, 1, 0, 0, 0, 0.046849371468156265, 0, 0,
     0, 1.7280582989361533, 0, 18.41570325463385, -13.743271480938104, 0, 73.8367329022058, 0, -95.57802408341716,
     215.78111099820157, 0, -27.976989112929353, 6.404060932334562, 109.04824706217418, -633.1966645925428, 0, 0, 0, 0,
     0, 0, 1, -0.6862449113932192, 0, 0, 0, 0, 0, 0, 641.8965762829259, 0, 0, 0, 0, 0],
   [-85.86062966719405, -4616.740713893726, -4925.756920247186, 7732.064464348168, 12828.269960300782,
     -39783.51698102803, 1, 50.206318806624004, 0, 0, 33.335857451144356, -36.49019206094966, -3.835967351280833,
     2.302712009652155, 1.6533417657003922, -69.19412903018717, 26.580344399838758, -15.399770764623746,
     31.231253209893488, 97.69027029734173, 93.64156367505917, -18.184492163348665, 423.48863373726243,
     -104.36120236420928, -719.8775484010988, 0, 1497.3545918387515, -101.72731770500685, 0, 0, 1075.8686153198323,
     -3443.0233614187396, -4253.974688619423, -608.2901586790335, 5064.173605639933, -1.3705601055555852, 1, 0, 0,
     22.363215261437862, 156.08206945239374, 0, 0, 0, 0, 0, 0, 0, 0],
   [0, 7.05731400277692, 22.455288821807095, 119.43820622871043, 0, 0, 0.26026709603623255, 1, 0, 0, 0, 0, 0, 0, 0,
     -7.9407123129681425, 9.486783128047414, 0, 0, 0, 134.88158268621922, -56.05992404859163, 0, 0, 0,
     -316.26970506215554, 90.31815139272628, 0, 0, 0, 0, 0, 0, 0, 0, 1, -0.7162058321905909, 0, 0, 0, 0,
     43.82713604567481, 0, 0, 0, 0, 0, 0, 0]]

/-- `PhenomX_phase_coeff_table` as an array. src/ripplegw/waveforms/IMRPhenomX_utils.py:853-1519. -/
def PhenomX_phase_coeff_table : Table := fun i k => (PhenomX_phase_coeff_table_rows.getD i []).getD k 0

end
end XAS
end Ripple

/-
  Numeric bounds for C120: the delay fitted by IMRPhenomXAS, sixteen intervals of the symmetric mass ratio, each with the polynomials
  expanded about its midpoint.
-/
import Verif.Prelude.IntervalTac
import Verif.Spec.ArrivalX

namespace Ripple
namespace XAS
set_option linter.unusedVariables false

/-- `peakDelay` with `k` for 1/(2π) and `y` for the product of spin difference, mass difference and squared mass ratio -/
noncomputable def pdk (e S y k : ℝ) : ℝ :=
  500 + (13.39320482758057 - 175.42481512989315 * e + 2097.425116152503 * e ^ 2 - 9862.84178637907 * e ^ 3
      + 16026.897939722587 * e ^ 4
      + (4.7895602776763 - 163.04871764530466 * e + 609.5575850476959 * e ^ 2) * S
      + (1.3934428041390161 - 97.51812681228478 * e + 376.9200932531847 * e ^ 2) * S ^ 2
      + (15.649521097877374 + 137.33317057388916 * e - 755.9566456906406 * e ^ 2) * S ^ 3
      + (13.097315867845788 + 149.30405703643288 * e - 764.5242164872267 * e ^ 2) * S ^ 4
      + 105.37711654943146 * y)
    - (3155.1635543201924 + 1257.9949740608242 * e - 32243.28428870599 * e ^ 2 + 347213.65466875216 * e ^ 3
      - 1922385.1649491738 * e ^ 4 + 5303591.1346921865 * e ^ 5 - 5789128.656876938 * e ^ 6
      + (-24.181508118588667 + 115.49264174560281 * e - 380.19778216022763 * e ^ 2) * S
      + (24.72585609641552 - 328.3762360751952 * e + 725.6024119989094 * e ^ 2) * S ^ 2
      + (23.404604124552 - 646.3410199799737 * e + 1941.8836639529036 * e ^ 2) * S ^ 3
      + (-12.814828278938885 - 325.92980012408367 * e + 1320.102640190539 * e ^ 2) * S ^ 4
      - 148.17317525117338 * y) * k

lemma pd_lo0 (t S y w k : ℝ) (ht : -0.0078125 ≤ t ∧ t ≤ 0.0078125) (hS : -1 ≤ S ∧ S ≤ 1)
    (hk : 0.15915 ≤ k ∧ k ≤ 0.159156) (hw : -2 ≤ w ∧ w ≤ 2) (hy : y = (0.0078125 + t) ^ 2 * w) :
    0 < 2.5 + (500 + ((12.1460718644635074442629516124725341796875 + t * ((-144.4279190766387622531890869140625) + t * (1872.1339871039661739501953125 + t * ((-9362.00122576273915625) + t * 16026.897939722587)))) + (3.552946613519116126708984375 + t * ((-153.5243803789344115625) + t * 609.5575850476959)) * S ^ 1 + (0.654587815203513955224609375 + t * ((-91.6287503552037690625) + t * 376.9200932531847)) * S ^ 2 + (16.67629656099792892431640625 + t * (125.521347984972900625 + t * (-755.9566456906406))) * S ^ 3 + (14.217090958432713167236328125 + t * (137.3583661538199628125 + t * (-764.5242164872267))) * S ^ 4 + 105.37711654943146 * y) - ((3163.18222212856666116343171670450828969478607177734375 + t * (814.201493496302612836012430489063262939453125 + t * ((-24784.496730422191406122148036956787109375) + t * (290320.963966866653276214599609375 + t * ((-1720513.7418321178130615234375) + t * (5032225.72890108003125 + t * (-5789128.656876938))))))) + ((-23.3024272859911980028076171875) + t * (109.55205139934925328125 + t * (-380.19778216022763))) * S ^ 1 + (22.20470400866978781005859375 + t * ((-317.038698387712240625) + t * 725.6024119989094)) * S ^ 2 + (18.4735880788071434326171875 + t * ((-615.99908773070958125) + t * 1941.8836639529036)) * S ^ 3 + ((-15.28058217149822159423828125) + t * ((-305.303196371106498125) + t * 1320.102640190539)) * S ^ 4 - 148.17317525117338 * y) * k) := by
  interval_bnb [ht, hS, hw, hk] [hy]

lemma pd_hi0 (t S y w k : ℝ) (ht : -0.0078125 ≤ t ∧ t ≤ 0.0078125) (hS : -1 ≤ S ∧ S ≤ 1)
    (hk : 0.15915 ≤ k ∧ k ≤ 0.159156) (hw : -2 ≤ w ∧ w ≤ 2) (hy : y = (0.0078125 + t) ^ 2 * w) :
    0 < 55 - (500 + ((12.1460718644635074442629516124725341796875 + t * ((-144.4279190766387622531890869140625) + t * (1872.1339871039661739501953125 + t * ((-9362.00122576273915625) + t * 16026.897939722587)))) + (3.552946613519116126708984375 + t * ((-153.5243803789344115625) + t * 609.5575850476959)) * S ^ 1 + (0.654587815203513955224609375 + t * ((-91.6287503552037690625) + t * 376.9200932531847)) * S ^ 2 + (16.67629656099792892431640625 + t * (125.521347984972900625 + t * (-755.9566456906406))) * S ^ 3 + (14.217090958432713167236328125 + t * (137.3583661538199628125 + t * (-764.5242164872267))) * S ^ 4 + 105.37711654943146 * y) - ((3163.18222212856666116343171670450828969478607177734375 + t * (814.201493496302612836012430489063262939453125 + t * ((-24784.496730422191406122148036956787109375) + t * (290320.963966866653276214599609375 + t * ((-1720513.7418321178130615234375) + t * (5032225.72890108003125 + t * (-5789128.656876938))))))) + ((-23.3024272859911980028076171875) + t * (109.55205139934925328125 + t * (-380.19778216022763))) * S ^ 1 + (22.20470400866978781005859375 + t * ((-317.038698387712240625) + t * 725.6024119989094)) * S ^ 2 + (18.4735880788071434326171875 + t * ((-615.99908773070958125) + t * 1941.8836639529036)) * S ^ 3 + ((-15.28058217149822159423828125) + t * ((-305.303196371106498125) + t * 1320.102640190539)) * S ^ 4 - 148.17317525117338 * y) * k) := by
  interval_bnb [ht, hS, hw, hk] [hy]

lemma pd_0 (e S y w k : ℝ) (he : 0.0 ≤ e ∧ e ≤ 0.015625) (hS : -1 ≤ S ∧ S ≤ 1)
    (hk : 0.15915 ≤ k ∧ k ≤ 0.159156) (hw : -2 ≤ w ∧ w ≤ 2) (hy : y = e ^ 2 * w) : -2.5 < pdk e S y k ∧ pdk e S y k < 55 := by
  have ht : -0.0078125 ≤ e - 0.0078125 ∧ e - 0.0078125 ≤ 0.0078125 := by constructor <;> linarith [he.1, he.2]
  have a := pd_lo0 (e - 0.0078125) S y w k ht hS hk hw (by rw [hy]; ring)
  have b := pd_hi0 (e - 0.0078125) S y w k ht hS hk hw (by rw [hy]; ring)
  have a' : 0 < 2.5 + pdk e S y k := lt_of_lt_of_eq a (by unfold pdk; ring)
  have b' : 0 < 55 - pdk e S y k := lt_of_lt_of_eq b (by unfold pdk; ring)
  constructor <;> linarith

lemma pn_lo0 (t k : ℝ) (ht : -0.0078125 ≤ t ∧ t ≤ 0.0078125) (hk : 0.15915 ≤ k ∧ k ≤ 0.159156) :
    0 < 500 + (12.1460718644635074442629516124725341796875 + t * ((-144.4279190766387622531890869140625) + t * (1872.1339871039661739501953125 + t * ((-9362.00122576273915625) + t * 16026.897939722587)))) - (3163.18222212856666116343171670450828969478607177734375 + t * (814.201493496302612836012430489063262939453125 + t * ((-24784.496730422191406122148036956787109375) + t * (290320.963966866653276214599609375 + t * ((-1720513.7418321178130615234375) + t * (5032225.72890108003125 + t * (-5789128.656876938))))))) * k - 4.1 := by
  interval_bnb [ht, hk] []

lemma pn_hi0 (t k : ℝ) (ht : -0.0078125 ≤ t ∧ t ≤ 0.0078125) (hk : 0.15915 ≤ k ∧ k ≤ 0.159156) :
    0 < 11.3 - (500 + (12.1460718644635074442629516124725341796875 + t * ((-144.4279190766387622531890869140625) + t * (1872.1339871039661739501953125 + t * ((-9362.00122576273915625) + t * 16026.897939722587)))) - (3163.18222212856666116343171670450828969478607177734375 + t * (814.201493496302612836012430489063262939453125 + t * ((-24784.496730422191406122148036956787109375) + t * (290320.963966866653276214599609375 + t * ((-1720513.7418321178130615234375) + t * (5032225.72890108003125 + t * (-5789128.656876938))))))) * k) := by
  interval_bnb [ht, hk] []

lemma pn_0 (e k : ℝ) (he : 0.0 ≤ e ∧ e ≤ 0.015625) (hk : 0.15915 ≤ k ∧ k ≤ 0.159156) :
    4.1 < pdk e 0 0 k ∧ pdk e 0 0 k < 11.3 := by
  have ht : -0.0078125 ≤ e - 0.0078125 ∧ e - 0.0078125 ≤ 0.0078125 := by constructor <;> linarith [he.1, he.2]
  have a := pn_lo0 (e - 0.0078125) k ht hk
  have b := pn_hi0 (e - 0.0078125) k ht hk
  have a' : 0 < pdk e 0 0 k - 4.1 := lt_of_lt_of_eq a (by unfold pdk; ring)
  have b' : 0 < 11.3 - pdk e 0 0 k := lt_of_lt_of_eq b (by unfold pdk; ring)
  constructor <;> linarith

lemma pd_lo1 (t S y w k : ℝ) (ht : -0.0078125 ≤ t ∧ t ≤ 0.0078125) (hS : -1 ≤ S ∧ S ≤ 1)
    (hk : 0.15915 ≤ k ∧ k ≤ 0.159156) (hw : -2 ≤ w ∧ w ≤ 2) (hy : y = (0.0234375 + t) ^ 2 * w) :
    0 < 2.5 + (500 + ((10.3116916676681846110467612743377685546875 + t * ((-92.5361154161768202404022216796875) + t * (1456.7670809252282843017578125 + t * ((-8360.32010453007746875) + t * 16026.897939722587)))) + (1.302945939885301077880859375 + t * ((-134.4757058461939146875) + t * 609.5575850476959)) * S ^ 1 + ((-0.685089901954654140478515625) + t * ((-79.8499974410417471875) + t * 376.9200932531847)) * S ^ 2 + (18.45300789531131394384765625 + t * (101.897702807140381875 + t * (-755.9566456906406))) * S ^ 3 + (16.176664009545323255126953125 + t * (113.4669843885941284375 + t * (-764.5242164872267))) * S ^ 4 + 105.37711654943146 * y) - ((3170.86275630186802344938669339171610772609710693359375 + t * (227.537810043050808400768600404262542724609375 + t * ((-13509.197053064023898144662380218505859375) + t * (194632.886983154396695098876953125 + t * ((-1348571.5290891511284912109375) + t * (4489494.91731886709375 + t * (-5789128.656876938))))))) + ((-21.6834982070365777440185546875) + t * (97.67087070684213984375 + t * (-380.19778216022763))) * S ^ 1 + (17.42812337272870529052734375 + t * ((-294.363623012746321875) + t * 725.6024119989094)) * S ^ 2 + (9.3226950244095580810546875 + t * ((-555.31522323218134375) + t * 1941.8836639529036)) * S ^ 3 + ((-19.72865393115649231689453125) + t * ((-264.049988865152154375) + t * 1320.102640190539)) * S ^ 4 - 148.17317525117338 * y) * k) := by
  interval_bnb [ht, hS, hw, hk] [hy]

lemma pd_hi1 (t S y w k : ℝ) (ht : -0.0078125 ≤ t ∧ t ≤ 0.0078125) (hS : -1 ≤ S ∧ S ≤ 1)
    (hk : 0.15915 ≤ k ∧ k ≤ 0.159156) (hw : -2 ≤ w ∧ w ≤ 2) (hy : y = (0.0234375 + t) ^ 2 * w) :
    0 < 55 - (500 + ((10.3116916676681846110467612743377685546875 + t * ((-92.5361154161768202404022216796875) + t * (1456.7670809252282843017578125 + t * ((-8360.32010453007746875) + t * 16026.897939722587)))) + (1.302945939885301077880859375 + t * ((-134.4757058461939146875) + t * 609.5575850476959)) * S ^ 1 + ((-0.685089901954654140478515625) + t * ((-79.8499974410417471875) + t * 376.9200932531847)) * S ^ 2 + (18.45300789531131394384765625 + t * (101.897702807140381875 + t * (-755.9566456906406))) * S ^ 3 + (16.176664009545323255126953125 + t * (113.4669843885941284375 + t * (-764.5242164872267))) * S ^ 4 + 105.37711654943146 * y) - ((3170.86275630186802344938669339171610772609710693359375 + t * (227.537810043050808400768600404262542724609375 + t * ((-13509.197053064023898144662380218505859375) + t * (194632.886983154396695098876953125 + t * ((-1348571.5290891511284912109375) + t * (4489494.91731886709375 + t * (-5789128.656876938))))))) + ((-21.6834982070365777440185546875) + t * (97.67087070684213984375 + t * (-380.19778216022763))) * S ^ 1 + (17.42812337272870529052734375 + t * ((-294.363623012746321875) + t * 725.6024119989094)) * S ^ 2 + (9.3226950244095580810546875 + t * ((-555.31522323218134375) + t * 1941.8836639529036)) * S ^ 3 + ((-19.72865393115649231689453125) + t * ((-264.049988865152154375) + t * 1320.102640190539)) * S ^ 4 - 148.17317525117338 * y) * k) := by
  interval_bnb [ht, hS, hw, hk] [hy]

lemma pd_1 (e S y w k : ℝ) (he : 0.015625 ≤ e ∧ e ≤ 0.03125) (hS : -1 ≤ S ∧ S ≤ 1)
    (hk : 0.15915 ≤ k ∧ k ≤ 0.159156) (hw : -2 ≤ w ∧ w ≤ 2) (hy : y = e ^ 2 * w) : -2.5 < pdk e S y k ∧ pdk e S y k < 55 := by
  have ht : -0.0078125 ≤ e - 0.0234375 ∧ e - 0.0234375 ≤ 0.0078125 := by constructor <;> linarith [he.1, he.2]
  have a := pd_lo1 (e - 0.0234375) S y w k ht hS hk hw (by rw [hy]; ring)
  have b := pd_hi1 (e - 0.0234375) S y w k ht hS hk hw (by rw [hy]; ring)
  have a' : 0 < 2.5 + pdk e S y k := lt_of_lt_of_eq a (by unfold pdk; ring)
  have b' : 0 < 55 - pdk e S y k := lt_of_lt_of_eq b (by unfold pdk; ring)
  constructor <;> linarith

lemma pn_lo1 (t k : ℝ) (ht : -0.0078125 ≤ t ∧ t ≤ 0.0078125) (hk : 0.15915 ≤ k ∧ k ≤ 0.159156) :
    0 < 500 + (10.3116916676681846110467612743377685546875 + t * ((-92.5361154161768202404022216796875) + t * (1456.7670809252282843017578125 + t * ((-8360.32010453007746875) + t * 16026.897939722587)))) - (3170.86275630186802344938669339171610772609710693359375 + t * (227.537810043050808400768600404262542724609375 + t * ((-13509.197053064023898144662380218505859375) + t * (194632.886983154396695098876953125 + t * ((-1348571.5290891511284912109375) + t * (4489494.91731886709375 + t * (-5789128.656876938))))))) * k - 4.1 := by
  interval_bnb [ht, hk] []

lemma pn_hi1 (t k : ℝ) (ht : -0.0078125 ≤ t ∧ t ≤ 0.0078125) (hk : 0.15915 ≤ k ∧ k ≤ 0.159156) :
    0 < 11.3 - (500 + (10.3116916676681846110467612743377685546875 + t * ((-92.5361154161768202404022216796875) + t * (1456.7670809252282843017578125 + t * ((-8360.32010453007746875) + t * 16026.897939722587)))) - (3170.86275630186802344938669339171610772609710693359375 + t * (227.537810043050808400768600404262542724609375 + t * ((-13509.197053064023898144662380218505859375) + t * (194632.886983154396695098876953125 + t * ((-1348571.5290891511284912109375) + t * (4489494.91731886709375 + t * (-5789128.656876938))))))) * k) := by
  interval_bnb [ht, hk] []

lemma pn_1 (e k : ℝ) (he : 0.015625 ≤ e ∧ e ≤ 0.03125) (hk : 0.15915 ≤ k ∧ k ≤ 0.159156) :
    4.1 < pdk e 0 0 k ∧ pdk e 0 0 k < 11.3 := by
  have ht : -0.0078125 ≤ e - 0.0234375 ∧ e - 0.0234375 ≤ 0.0078125 := by constructor <;> linarith [he.1, he.2]
  have a := pn_lo1 (e - 0.0234375) k ht hk
  have b := pn_hi1 (e - 0.0234375) k ht hk
  have a' : 0 < pdk e 0 0 k - 4.1 := lt_of_lt_of_eq a (by unfold pdk; ring)
  have b' : 0 < 11.3 - pdk e 0 0 k := lt_of_lt_of_eq b (by unfold pdk; ring)
  constructor <;> linarith

lemma pd_lo2 (t S y w k : ℝ) (ht : -0.0078125 ≤ t ∧ t ≤ 0.0078125) (hS : -1 ≤ S ∧ S ≤ 1)
    (hk : 0.15915 ≤ k ∧ k ≤ 0.159156) (hw : -2 ≤ w ∧ w ≤ 2) (hy : y = (0.0390625 + t) ^ 2 * w) :
    0 < 2.5 + (500 + ((9.1905340772229806103591620922088623046875 + t * ((-52.8908744088351088947296142578125) + t * (1088.3539773042714112548828125 + t * ((-7358.63898329741578125) + t * 16026.897939722587)))) + ((-0.649419194174443707275390625) + t * ((-115.4270313134534178125) + t * 609.5575850476959)) * S ^ 1 + ((-1.840724604829040644384765625) + t * ((-68.0712445268797253125) + t * 376.9200932531847)) * S ^ 2 + (19.86059977372106585791015625 + t * (78.274057629307863125 + t * (-755.9566456906406))) * S ^ 3 + (17.762934220576279680908203125 + t * (89.5756026233682940625 + t * (-764.5242164872267))) * S ^ 4 + 105.37711654943146 * y) - ((3171.78607211189291741527198100811801850795745849609375 + t * ((-71.343157870793794975834153592586517333984375) + t * ((-6195.142296048794360781610012054443359375) + t * (120866.171900413170845184326171875 + t * ((-1019030.1610010448296630859375) + t * (3946764.10573665415625 + t * (-5789128.656876938))))))) + ((-20.2502125764023811326904296875) + t * (85.78969001433502640625 + t * (-380.19778216022763))) * S ^ 1 + (13.00584078952146525146484375 + t * ((-271.688547637780403125) + t * 725.6024119989094)) * S ^ 2 + (1.1199873528014764404296875 + t * ((-494.63135873365310625) + t * 1941.8836639529036)) * S ^ 3 + ((-23.53214432353422641845703125) + t * ((-222.796781359197810625) + t * 1320.102640190539)) * S ^ 4 - 148.17317525117338 * y) * k) := by
  interval_bnb [ht, hS, hw, hk] [hy]

lemma pd_hi2 (t S y w k : ℝ) (ht : -0.0078125 ≤ t ∧ t ≤ 0.0078125) (hS : -1 ≤ S ∧ S ≤ 1)
    (hk : 0.15915 ≤ k ∧ k ≤ 0.159156) (hw : -2 ≤ w ∧ w ≤ 2) (hy : y = (0.0390625 + t) ^ 2 * w) :
    0 < 55 - (500 + ((9.1905340772229806103591620922088623046875 + t * ((-52.8908744088351088947296142578125) + t * (1088.3539773042714112548828125 + t * ((-7358.63898329741578125) + t * 16026.897939722587)))) + ((-0.649419194174443707275390625) + t * ((-115.4270313134534178125) + t * 609.5575850476959)) * S ^ 1 + ((-1.840724604829040644384765625) + t * ((-68.0712445268797253125) + t * 376.9200932531847)) * S ^ 2 + (19.86059977372106585791015625 + t * (78.274057629307863125 + t * (-755.9566456906406))) * S ^ 3 + (17.762934220576279680908203125 + t * (89.5756026233682940625 + t * (-764.5242164872267))) * S ^ 4 + 105.37711654943146 * y) - ((3171.78607211189291741527198100811801850795745849609375 + t * ((-71.343157870793794975834153592586517333984375) + t * ((-6195.142296048794360781610012054443359375) + t * (120866.171900413170845184326171875 + t * ((-1019030.1610010448296630859375) + t * (3946764.10573665415625 + t * (-5789128.656876938))))))) + ((-20.2502125764023811326904296875) + t * (85.78969001433502640625 + t * (-380.19778216022763))) * S ^ 1 + (13.00584078952146525146484375 + t * ((-271.688547637780403125) + t * 725.6024119989094)) * S ^ 2 + (1.1199873528014764404296875 + t * ((-494.63135873365310625) + t * 1941.8836639529036)) * S ^ 3 + ((-23.53214432353422641845703125) + t * ((-222.796781359197810625) + t * 1320.102640190539)) * S ^ 4 - 148.17317525117338 * y) * k) := by
  interval_bnb [ht, hS, hw, hk] [hy]

lemma pd_2 (e S y w k : ℝ) (he : 0.03125 ≤ e ∧ e ≤ 0.046875) (hS : -1 ≤ S ∧ S ≤ 1)
    (hk : 0.15915 ≤ k ∧ k ≤ 0.159156) (hw : -2 ≤ w ∧ w ≤ 2) (hy : y = e ^ 2 * w) : -2.5 < pdk e S y k ∧ pdk e S y k < 55 := by
  have ht : -0.0078125 ≤ e - 0.0390625 ∧ e - 0.0390625 ≤ 0.0078125 := by constructor <;> linarith [he.1, he.2]
  have a := pd_lo2 (e - 0.0390625) S y w k ht hS hk hw (by rw [hy]; ring)
  have b := pd_hi2 (e - 0.0390625) S y w k ht hS hk hw (by rw [hy]; ring)
  have a' : 0 < 2.5 + pdk e S y k := lt_of_lt_of_eq a (by unfold pdk; ring)
  have b' : 0 < 55 - pdk e S y k := lt_of_lt_of_eq b (by unfold pdk; ring)
  constructor <;> linarith

lemma pn_lo2 (t k : ℝ) (ht : -0.0078125 ≤ t ∧ t ≤ 0.0078125) (hk : 0.15915 ≤ k ∧ k ≤ 0.159156) :
    0 < 500 + (9.1905340772229806103591620922088623046875 + t * ((-52.8908744088351088947296142578125) + t * (1088.3539773042714112548828125 + t * ((-7358.63898329741578125) + t * 16026.897939722587)))) - (3171.78607211189291741527198100811801850795745849609375 + t * ((-71.343157870793794975834153592586517333984375) + t * ((-6195.142296048794360781610012054443359375) + t * (120866.171900413170845184326171875 + t * ((-1019030.1610010448296630859375) + t * (3946764.10573665415625 + t * (-5789128.656876938))))))) * k - 4.1 := by
  interval_bnb [ht, hk] []

lemma pn_hi2 (t k : ℝ) (ht : -0.0078125 ≤ t ∧ t ≤ 0.0078125) (hk : 0.15915 ≤ k ∧ k ≤ 0.159156) :
    0 < 11.3 - (500 + (9.1905340772229806103591620922088623046875 + t * ((-52.8908744088351088947296142578125) + t * (1088.3539773042714112548828125 + t * ((-7358.63898329741578125) + t * 16026.897939722587)))) - (3171.78607211189291741527198100811801850795745849609375 + t * ((-71.343157870793794975834153592586517333984375) + t * ((-6195.142296048794360781610012054443359375) + t * (120866.171900413170845184326171875 + t * ((-1019030.1610010448296630859375) + t * (3946764.10573665415625 + t * (-5789128.656876938))))))) * k) := by
  interval_bnb [ht, hk] []

lemma pn_2 (e k : ℝ) (he : 0.03125 ≤ e ∧ e ≤ 0.046875) (hk : 0.15915 ≤ k ∧ k ≤ 0.159156) :
    4.1 < pdk e 0 0 k ∧ pdk e 0 0 k < 11.3 := by
  have ht : -0.0078125 ≤ e - 0.0390625 ∧ e - 0.0390625 ≤ 0.0078125 := by constructor <;> linarith [he.1, he.2]
  have a := pn_lo2 (e - 0.0390625) k ht hk
  have b := pn_hi2 (e - 0.0390625) k ht hk
  have a' : 0 < pdk e 0 0 k - 4.1 := lt_of_lt_of_eq a (by unfold pdk; ring)
  have b' : 0 < 11.3 - pdk e 0 0 k := lt_of_lt_of_eq b (by unfold pdk; ring)
  constructor <;> linarith

lemma pd_lo3 (t S y w k : ℝ) (ht : -0.0078125 ≤ t ∧ t ≤ 0.0078125) (hS : -1 ≤ S ∧ S ≤ 1)
    (hk : 0.15915 ≤ k ∧ k ≤ 0.159156) (hw : -2 ≤ w ∧ w ≤ 2) (hy : y = (0.0546875 + t) ^ 2 * w) :
    0 < 2.5 + (500 + ((8.6027098823754750940327346324920654296875 + t * ((-24.0248897246829714473724365234375) + t * (766.8946762410955548095703125 + t * ((-6356.95786206475409375) + t * 16026.897939722587)))) + ((-2.304148788660118228759765625) + t * ((-96.3783567807129209375) + t * 609.5575850476959)) * S ^ 1 + ((-2.812316293419645556494140625) + t * ((-56.2924916127177034375) + t * 376.9200932531847)) * S ^ 2 + (20.89907219622718466650390625 + t * (54.650412451475344375 + t * (-755.9566456906406))) * S ^ 3 + (18.975901591525582444580078125 + t * (65.6842208581424596875 + t * (-764.5242164872267))) * S ^ 4 + 105.37711654943146 * y) - ((3169.56276975033256125651013207971118390560150146484375 + t * ((-190.821614564545587468095310032367706298828125) + t * ((-1876.879232555878871684968471527099609375) + t * (66370.765927714201617584228515625 + t * ((-731889.6375677989165771484375) + t * (3404033.29415444121875 + t * (-5789128.656876938))))))) + ((-19.0025703940886081688232421875) + t * (73.90850932182791296875 + t * (-380.19778216022763))) * S ^ 1 + (8.93785625904806769287109375 + t * ((-249.013472262814484375) + t * 725.6024119989094)) * S ^ 2 + ((-6.1345349360171014892578125) + t * ((-433.94749423512486875) + t * 1941.8836639529036)) * S ^ 3 + ((-26.69105334863142389892578125) + t * ((-181.543573853243466875) + t * 1320.102640190539)) * S ^ 4 - 148.17317525117338 * y) * k) := by
  interval_bnb [ht, hS, hw, hk] [hy]

lemma pd_hi3 (t S y w k : ℝ) (ht : -0.0078125 ≤ t ∧ t ≤ 0.0078125) (hS : -1 ≤ S ∧ S ≤ 1)
    (hk : 0.15915 ≤ k ∧ k ≤ 0.159156) (hw : -2 ≤ w ∧ w ≤ 2) (hy : y = (0.0546875 + t) ^ 2 * w) :
    0 < 55 - (500 + ((8.6027098823754750940327346324920654296875 + t * ((-24.0248897246829714473724365234375) + t * (766.8946762410955548095703125 + t * ((-6356.95786206475409375) + t * 16026.897939722587)))) + ((-2.304148788660118228759765625) + t * ((-96.3783567807129209375) + t * 609.5575850476959)) * S ^ 1 + ((-2.812316293419645556494140625) + t * ((-56.2924916127177034375) + t * 376.9200932531847)) * S ^ 2 + (20.89907219622718466650390625 + t * (54.650412451475344375 + t * (-755.9566456906406))) * S ^ 3 + (18.975901591525582444580078125 + t * (65.6842208581424596875 + t * (-764.5242164872267))) * S ^ 4 + 105.37711654943146 * y) - ((3169.56276975033256125651013207971118390560150146484375 + t * ((-190.821614564545587468095310032367706298828125) + t * ((-1876.879232555878871684968471527099609375) + t * (66370.765927714201617584228515625 + t * ((-731889.6375677989165771484375) + t * (3404033.29415444121875 + t * (-5789128.656876938))))))) + ((-19.0025703940886081688232421875) + t * (73.90850932182791296875 + t * (-380.19778216022763))) * S ^ 1 + (8.93785625904806769287109375 + t * ((-249.013472262814484375) + t * 725.6024119989094)) * S ^ 2 + ((-6.1345349360171014892578125) + t * ((-433.94749423512486875) + t * 1941.8836639529036)) * S ^ 3 + ((-26.69105334863142389892578125) + t * ((-181.543573853243466875) + t * 1320.102640190539)) * S ^ 4 - 148.17317525117338 * y) * k) := by
  interval_bnb [ht, hS, hw, hk] [hy]

lemma pd_3 (e S y w k : ℝ) (he : 0.046875 ≤ e ∧ e ≤ 0.0625) (hS : -1 ≤ S ∧ S ≤ 1)
    (hk : 0.15915 ≤ k ∧ k ≤ 0.159156) (hw : -2 ≤ w ∧ w ≤ 2) (hy : y = e ^ 2 * w) : -2.5 < pdk e S y k ∧ pdk e S y k < 55 := by
  have ht : -0.0078125 ≤ e - 0.0546875 ∧ e - 0.0546875 ≤ 0.0078125 := by constructor <;> linarith [he.1, he.2]
  have a := pd_lo3 (e - 0.0546875) S y w k ht hS hk hw (by rw [hy]; ring)
  have b := pd_hi3 (e - 0.0546875) S y w k ht hS hk hw (by rw [hy]; ring)
  have a' : 0 < 2.5 + pdk e S y k := lt_of_lt_of_eq a (by unfold pdk; ring)
  have b' : 0 < 55 - pdk e S y k := lt_of_lt_of_eq b (by unfold pdk; ring)
  constructor <;> linarith

lemma pn_lo3 (t k : ℝ) (ht : -0.0078125 ≤ t ∧ t ≤ 0.0078125) (hk : 0.15915 ≤ k ∧ k ≤ 0.159156) :
    0 < 500 + (8.6027098823754750940327346324920654296875 + t * ((-24.0248897246829714473724365234375) + t * (766.8946762410955548095703125 + t * ((-6356.95786206475409375) + t * 16026.897939722587)))) - (3169.56276975033256125651013207971118390560150146484375 + t * ((-190.821614564545587468095310032367706298828125) + t * ((-1876.879232555878871684968471527099609375) + t * (66370.765927714201617584228515625 + t * ((-731889.6375677989165771484375) + t * (3404033.29415444121875 + t * (-5789128.656876938))))))) * k - 4.1 := by
  interval_bnb [ht, hk] []

lemma pn_hi3 (t k : ℝ) (ht : -0.0078125 ≤ t ∧ t ≤ 0.0078125) (hk : 0.15915 ≤ k ∧ k ≤ 0.159156) :
    0 < 11.3 - (500 + (8.6027098823754750940327346324920654296875 + t * ((-24.0248897246829714473724365234375) + t * (766.8946762410955548095703125 + t * ((-6356.95786206475409375) + t * 16026.897939722587)))) - (3169.56276975033256125651013207971118390560150146484375 + t * ((-190.821614564545587468095310032367706298828125) + t * ((-1876.879232555878871684968471527099609375) + t * (66370.765927714201617584228515625 + t * ((-731889.6375677989165771484375) + t * (3404033.29415444121875 + t * (-5789128.656876938))))))) * k) := by
  interval_bnb [ht, hk] []

lemma pn_3 (e k : ℝ) (he : 0.046875 ≤ e ∧ e ≤ 0.0625) (hk : 0.15915 ≤ k ∧ k ≤ 0.159156) :
    4.1 < pdk e 0 0 k ∧ pdk e 0 0 k < 11.3 := by
  have ht : -0.0078125 ≤ e - 0.0546875 ∧ e - 0.0546875 ≤ 0.0078125 := by constructor <;> linarith [he.1, he.2]
  have a := pn_lo3 (e - 0.0546875) k ht hk
  have b := pn_hi3 (e - 0.0546875) k ht hk
  have a' : 0 < pdk e 0 0 k - 4.1 := lt_of_lt_of_eq a (by unfold pdk; ring)
  have b' : 0 < 11.3 - pdk e 0 0 k := lt_of_lt_of_eq b (by unfold pdk; ring)
  constructor <;> linarith

lemma pd_lo4 (t S y w k : ℝ) (ht : -0.0078125 ≤ t ∧ t ≤ 0.0078125) (hS : -1 ≤ S ∧ S ≤ 1)
    (hk : 0.15915 ≤ k ∧ k ≤ 0.159156) (hw : -2 ≤ w ∧ w ≤ 2) (hy : y = (0.0703125 + t) ^ 2 * w) :
    0 < 2.5 + (500 + ((8.3912565337784142259125411510467529296875 + t * ((-4.4708550337897511295318603515625) + t * (492.3891777357007149658203125 + t * ((-5355.27674083209240625) + t * 16026.897939722587)))) + ((-3.661242843571722486572265625) + t * ((-77.3296822479724240625) + t * 609.5575850476959)) * S ^ 1 + ((-3.599864967726468876806640625) + t * ((-44.5137386985556815625) + t * 376.9200932531847)) * S ^ 2 + (21.56842516282967036962890625 + t * (31.026767273642825625 + t * (-755.9566456906406))) * S ^ 3 + (19.815566122393231546142578125 + t * (41.7928390929166253125 + t * (-764.5242164872267))) * S ^ 4 + 105.37711654943146 * y) - ((3166.33560592145782181494496398954652249813079833984375 + t * ((-211.048307653355497401220910251140594482421875) + t * (286.824139660560205139219760894775390625 + t * (28496.616274128714903411865234375 + t * ((-487149.9587894133892333984375) + t * (2861302.48257222828125 + t * (-5789128.656876938))))))) + ((-17.9405716600952588524169921875) + t * (62.02732862932079953125 + t * (-380.19778216022763))) * S ^ 1 + (5.22416978130851261474609375 + t * ((-226.338396887848565625) + t * 725.6024119989094)) * S ^ 2 + ((-12.4408718420461757080078125) + t * ((-373.26362973659663125) + t * 1941.8836639529036)) * S ^ 3 + ((-29.20538100644808475830078125) + t * ((-140.290366347289123125) + t * 1320.102640190539)) * S ^ 4 - 148.17317525117338 * y) * k) := by
  interval_bnb [ht, hS, hw, hk] [hy]

lemma pd_hi4 (t S y w k : ℝ) (ht : -0.0078125 ≤ t ∧ t ≤ 0.0078125) (hS : -1 ≤ S ∧ S ≤ 1)
    (hk : 0.15915 ≤ k ∧ k ≤ 0.159156) (hw : -2 ≤ w ∧ w ≤ 2) (hy : y = (0.0703125 + t) ^ 2 * w) :
    0 < 55 - (500 + ((8.3912565337784142259125411510467529296875 + t * ((-4.4708550337897511295318603515625) + t * (492.3891777357007149658203125 + t * ((-5355.27674083209240625) + t * 16026.897939722587)))) + ((-3.661242843571722486572265625) + t * ((-77.3296822479724240625) + t * 609.5575850476959)) * S ^ 1 + ((-3.599864967726468876806640625) + t * ((-44.5137386985556815625) + t * 376.9200932531847)) * S ^ 2 + (21.56842516282967036962890625 + t * (31.026767273642825625 + t * (-755.9566456906406))) * S ^ 3 + (19.815566122393231546142578125 + t * (41.7928390929166253125 + t * (-764.5242164872267))) * S ^ 4 + 105.37711654943146 * y) - ((3166.33560592145782181494496398954652249813079833984375 + t * ((-211.048307653355497401220910251140594482421875) + t * (286.824139660560205139219760894775390625 + t * (28496.616274128714903411865234375 + t * ((-487149.9587894133892333984375) + t * (2861302.48257222828125 + t * (-5789128.656876938))))))) + ((-17.9405716600952588524169921875) + t * (62.02732862932079953125 + t * (-380.19778216022763))) * S ^ 1 + (5.22416978130851261474609375 + t * ((-226.338396887848565625) + t * 725.6024119989094)) * S ^ 2 + ((-12.4408718420461757080078125) + t * ((-373.26362973659663125) + t * 1941.8836639529036)) * S ^ 3 + ((-29.20538100644808475830078125) + t * ((-140.290366347289123125) + t * 1320.102640190539)) * S ^ 4 - 148.17317525117338 * y) * k) := by
  interval_bnb [ht, hS, hw, hk] [hy]

lemma pd_4 (e S y w k : ℝ) (he : 0.0625 ≤ e ∧ e ≤ 0.078125) (hS : -1 ≤ S ∧ S ≤ 1)
    (hk : 0.15915 ≤ k ∧ k ≤ 0.159156) (hw : -2 ≤ w ∧ w ≤ 2) (hy : y = e ^ 2 * w) : -2.5 < pdk e S y k ∧ pdk e S y k < 55 := by
  have ht : -0.0078125 ≤ e - 0.0703125 ∧ e - 0.0703125 ≤ 0.0078125 := by constructor <;> linarith [he.1, he.2]
  have a := pd_lo4 (e - 0.0703125) S y w k ht hS hk hw (by rw [hy]; ring)
  have b := pd_hi4 (e - 0.0703125) S y w k ht hS hk hw (by rw [hy]; ring)
  have a' : 0 < 2.5 + pdk e S y k := lt_of_lt_of_eq a (by unfold pdk; ring)
  have b' : 0 < 55 - pdk e S y k := lt_of_lt_of_eq b (by unfold pdk; ring)
  constructor <;> linarith

lemma pn_lo4 (t k : ℝ) (ht : -0.0078125 ≤ t ∧ t ≤ 0.0078125) (hk : 0.15915 ≤ k ∧ k ≤ 0.159156) :
    0 < 500 + (8.3912565337784142259125411510467529296875 + t * ((-4.4708550337897511295318603515625) + t * (492.3891777357007149658203125 + t * ((-5355.27674083209240625) + t * 16026.897939722587)))) - (3166.33560592145782181494496398954652249813079833984375 + t * ((-211.048307653355497401220910251140594482421875) + t * (286.824139660560205139219760894775390625 + t * (28496.616274128714903411865234375 + t * ((-487149.9587894133892333984375) + t * (2861302.48257222828125 + t * (-5789128.656876938))))))) * k - 4.1 := by
  interval_bnb [ht, hk] []

lemma pn_hi4 (t k : ℝ) (ht : -0.0078125 ≤ t ∧ t ≤ 0.0078125) (hk : 0.15915 ≤ k ∧ k ≤ 0.159156) :
    0 < 11.3 - (500 + (8.3912565337784142259125411510467529296875 + t * ((-4.4708550337897511295318603515625) + t * (492.3891777357007149658203125 + t * ((-5355.27674083209240625) + t * 16026.897939722587)))) - (3166.33560592145782181494496398954652249813079833984375 + t * ((-211.048307653355497401220910251140594482421875) + t * (286.824139660560205139219760894775390625 + t * (28496.616274128714903411865234375 + t * ((-487149.9587894133892333984375) + t * (2861302.48257222828125 + t * (-5789128.656876938))))))) * k) := by
  interval_bnb [ht, hk] []

lemma pn_4 (e k : ℝ) (he : 0.0625 ≤ e ∧ e ≤ 0.078125) (hk : 0.15915 ≤ k ∧ k ≤ 0.159156) :
    4.1 < pdk e 0 0 k ∧ pdk e 0 0 k < 11.3 := by
  have ht : -0.0078125 ≤ e - 0.0703125 ∧ e - 0.0703125 ≤ 0.0078125 := by constructor <;> linarith [he.1, he.2]
  have a := pn_lo4 (e - 0.0703125) k ht hk
  have b := pn_hi4 (e - 0.0703125) k ht hk
  have a' : 0 < pdk e 0 0 k - 4.1 := lt_of_lt_of_eq a (by unfold pdk; ring)
  have b' : 0 < 11.3 - pdk e 0 0 k := lt_of_lt_of_eq b (by unfold pdk; ring)
  constructor <;> linarith

lemma pd_lo5 (t S y w k : ℝ) (ht : -0.0078125 ≤ t ∧ t ≤ 0.0078125) (hS : -1 ≤ S ∧ S ≤ 1)
    (hk : 0.15915 ≤ k ∧ k ≤ 0.159156) (hw : -2 ≤ w ∧ w ≤ 2) (hy : y = (0.0859375 + t) ^ 2 * w) :
    0 < 2.5 + (500 + ((8.4221381434897106818561255931854248046875 + t * (7.2385359937752088275909423828125 + t * (264.8374817880868917236328125 + t * ((-4353.59561959943071875) + t * 16026.897939722587)))) + ((-4.720701358909256480712890625) + t * ((-58.2810077152319271875) + t * 609.5575850476959)) * S ^ 1 + ((-4.203370627749510605322265625) + t * ((-32.7349857843936596875) + t * 376.9200932531847)) * S ^ 2 + (21.86865867352852296728515625 + t * (7.403122095810306875 + t * (-755.9566456906406))) * S ^ 3 + (20.281927813179226985595703125 + t * (17.9014573276907909375 + t * (-764.5242164872267))) * S ^ 4 + 105.37711654943146 * y) - ((3163.19025165571581498704173354781232774257659912109375 + t * ((-187.826441316173062699888087809085845947265625) + t * (1012.978598271574219330847263336181640625 + t * (4593.670148727936593780517578125 + t * ((-284811.1246658882476318359375) + t * (2318571.67099001534375 + t * (-5789128.656876938))))))) + ((-17.0642163744223331834716796875) + t * (50.14614793681368609375 + t * (-380.19778216022763))) * S ^ 1 + (1.86478135630280001708984375 + t * ((-203.663321512882646875) + t * 725.6024119989094)) * S ^ 2 + ((-17.7990233652857462158203125) + t * ((-312.57976523806839375) + t * 1941.8836639529036)) * S ^ 3 + ((-31.07512729698420899658203125) + t * ((-99.037158841334779375) + t * 1320.102640190539)) * S ^ 4 - 148.17317525117338 * y) * k) := by
  interval_bnb [ht, hS, hw, hk] [hy]

lemma pd_hi5 (t S y w k : ℝ) (ht : -0.0078125 ≤ t ∧ t ≤ 0.0078125) (hS : -1 ≤ S ∧ S ≤ 1)
    (hk : 0.15915 ≤ k ∧ k ≤ 0.159156) (hw : -2 ≤ w ∧ w ≤ 2) (hy : y = (0.0859375 + t) ^ 2 * w) :
    0 < 55 - (500 + ((8.4221381434897106818561255931854248046875 + t * (7.2385359937752088275909423828125 + t * (264.8374817880868917236328125 + t * ((-4353.59561959943071875) + t * 16026.897939722587)))) + ((-4.720701358909256480712890625) + t * ((-58.2810077152319271875) + t * 609.5575850476959)) * S ^ 1 + ((-4.203370627749510605322265625) + t * ((-32.7349857843936596875) + t * 376.9200932531847)) * S ^ 2 + (21.86865867352852296728515625 + t * (7.403122095810306875 + t * (-755.9566456906406))) * S ^ 3 + (20.281927813179226985595703125 + t * (17.9014573276907909375 + t * (-764.5242164872267))) * S ^ 4 + 105.37711654943146 * y) - ((3163.19025165571581498704173354781232774257659912109375 + t * ((-187.826441316173062699888087809085845947265625) + t * (1012.978598271574219330847263336181640625 + t * (4593.670148727936593780517578125 + t * ((-284811.1246658882476318359375) + t * (2318571.67099001534375 + t * (-5789128.656876938))))))) + ((-17.0642163744223331834716796875) + t * (50.14614793681368609375 + t * (-380.19778216022763))) * S ^ 1 + (1.86478135630280001708984375 + t * ((-203.663321512882646875) + t * 725.6024119989094)) * S ^ 2 + ((-17.7990233652857462158203125) + t * ((-312.57976523806839375) + t * 1941.8836639529036)) * S ^ 3 + ((-31.07512729698420899658203125) + t * ((-99.037158841334779375) + t * 1320.102640190539)) * S ^ 4 - 148.17317525117338 * y) * k) := by
  interval_bnb [ht, hS, hw, hk] [hy]

lemma pd_5 (e S y w k : ℝ) (he : 0.078125 ≤ e ∧ e ≤ 0.09375) (hS : -1 ≤ S ∧ S ≤ 1)
    (hk : 0.15915 ≤ k ∧ k ≤ 0.159156) (hw : -2 ≤ w ∧ w ≤ 2) (hy : y = e ^ 2 * w) : -2.5 < pdk e S y k ∧ pdk e S y k < 55 := by
  have ht : -0.0078125 ≤ e - 0.0859375 ∧ e - 0.0859375 ≤ 0.0078125 := by constructor <;> linarith [he.1, he.2]
  have a := pd_lo5 (e - 0.0859375) S y w k ht hS hk hw (by rw [hy]; ring)
  have b := pd_hi5 (e - 0.0859375) S y w k ht hS hk hw (by rw [hy]; ring)
  have a' : 0 < 2.5 + pdk e S y k := lt_of_lt_of_eq a (by unfold pdk; ring)
  have b' : 0 < 55 - pdk e S y k := lt_of_lt_of_eq b (by unfold pdk; ring)
  constructor <;> linarith

lemma pn_lo5 (t k : ℝ) (ht : -0.0078125 ≤ t ∧ t ≤ 0.0078125) (hk : 0.15915 ≤ k ∧ k ≤ 0.159156) :
    0 < 500 + (8.4221381434897106818561255931854248046875 + t * (7.2385359937752088275909423828125 + t * (264.8374817880868917236328125 + t * ((-4353.59561959943071875) + t * 16026.897939722587)))) - (3163.19025165571581498704173354781232774257659912109375 + t * ((-187.826441316173062699888087809085845947265625) + t * (1012.978598271574219330847263336181640625 + t * (4593.670148727936593780517578125 + t * ((-284811.1246658882476318359375) + t * (2318571.67099001534375 + t * (-5789128.656876938))))))) * k - 4.1 := by
  interval_bnb [ht, hk] []

lemma pn_hi5 (t k : ℝ) (ht : -0.0078125 ≤ t ∧ t ≤ 0.0078125) (hk : 0.15915 ≤ k ∧ k ≤ 0.159156) :
    0 < 11.3 - (500 + (8.4221381434897106818561255931854248046875 + t * (7.2385359937752088275909423828125 + t * (264.8374817880868917236328125 + t * ((-4353.59561959943071875) + t * 16026.897939722587)))) - (3163.19025165571581498704173354781232774257659912109375 + t * ((-187.826441316173062699888087809085845947265625) + t * (1012.978598271574219330847263336181640625 + t * (4593.670148727936593780517578125 + t * ((-284811.1246658882476318359375) + t * (2318571.67099001534375 + t * (-5789128.656876938))))))) * k) := by
  interval_bnb [ht, hk] []

lemma pn_5 (e k : ℝ) (he : 0.078125 ≤ e ∧ e ≤ 0.09375) (hk : 0.15915 ≤ k ∧ k ≤ 0.159156) :
    4.1 < pdk e 0 0 k ∧ pdk e 0 0 k < 11.3 := by
  have ht : -0.0078125 ≤ e - 0.0859375 ∧ e - 0.0859375 ≤ 0.0078125 := by constructor <;> linarith [he.1, he.2]
  have a := pn_lo5 (e - 0.0859375) k ht hk
  have b := pn_hi5 (e - 0.0859375) k ht hk
  have a' : 0 < pdk e 0 0 k - 4.1 := lt_of_lt_of_eq a (by unfold pdk; ring)
  have b' : 0 < 11.3 - pdk e 0 0 k := lt_of_lt_of_eq b (by unfold pdk; ring)
  constructor <;> linarith

lemma pd_lo6 (t S y w k : ℝ) (ht : -0.0078125 ≤ t ∧ t ≤ 0.0078125) (hS : -1 ≤ S ∧ S ≤ 1)
    (hk : 0.15915 ≤ k ∧ k ≤ 0.159156) (hw : -2 ≤ w ∧ w ≤ 2) (hy : y = (0.1015625 + t) ^ 2 * w) :
    0 < 2.5 + (500 + ((8.5842454849724436497335135936737060546875 + t * (12.5705896879425651927947998046875 + t * (84.2395883982540850830078125 + t * ((-3351.91449836676903125) + t * 16026.897939722587)))) + ((-5.482524334672720211181640625) + t * ((-39.2323331824914303125) + t * 609.5575850476959)) * S ^ 1 + ((-4.622833273488770742041015625) + t * ((-20.9562328702316378125) + t * 376.9200932531847)) * S ^ 2 + (21.79977272832374245947265625 + t * ((-16.220523082022211875) + t * (-755.9566456906406))) * S ^ 3 + (20.374986663883568762939453125 + t * ((-5.9899244375350434375) + t * (-764.5242164872267))) * S ^ 4 + 105.37711654943146 * y) - ((3160.50539522851459876570349078974686563014984130859375 + t * ((-156.493589563708502336809597909450531005859375) + t * (894.373696373428234175741672515869140625 + t * ((-7988.125239416907420196533203125) + t * ((-124873.1351972234917724609375) + t * (1775840.85940780240625 + t * (-5789128.656876938))))))) + ((-16.3735045370698311619873046875) + t * (38.26496724430657265625 + t * (-380.19778216022763))) * S ^ 1 + ((-1.14030901596907010009765625) + t * ((-180.988246137916728125) + t * 725.6024119989094)) * S ^ 2 + ((-22.2089895057358130126953125) + t * ((-251.89590073954015625) + t * 1941.8836639529036)) * S ^ 3 + ((-32.30029222023979661376953125) + t * ((-57.783951335380435625) + t * 1320.102640190539)) * S ^ 4 - 148.17317525117338 * y) * k) := by
  interval_bnb [ht, hS, hw, hk] [hy]

lemma pd_hi6 (t S y w k : ℝ) (ht : -0.0078125 ≤ t ∧ t ≤ 0.0078125) (hS : -1 ≤ S ∧ S ≤ 1)
    (hk : 0.15915 ≤ k ∧ k ≤ 0.159156) (hw : -2 ≤ w ∧ w ≤ 2) (hy : y = (0.1015625 + t) ^ 2 * w) :
    0 < 55 - (500 + ((8.5842454849724436497335135936737060546875 + t * (12.5705896879425651927947998046875 + t * (84.2395883982540850830078125 + t * ((-3351.91449836676903125) + t * 16026.897939722587)))) + ((-5.482524334672720211181640625) + t * ((-39.2323331824914303125) + t * 609.5575850476959)) * S ^ 1 + ((-4.622833273488770742041015625) + t * ((-20.9562328702316378125) + t * 376.9200932531847)) * S ^ 2 + (21.79977272832374245947265625 + t * ((-16.220523082022211875) + t * (-755.9566456906406))) * S ^ 3 + (20.374986663883568762939453125 + t * ((-5.9899244375350434375) + t * (-764.5242164872267))) * S ^ 4 + 105.37711654943146 * y) - ((3160.50539522851459876570349078974686563014984130859375 + t * ((-156.493589563708502336809597909450531005859375) + t * (894.373696373428234175741672515869140625 + t * ((-7988.125239416907420196533203125) + t * ((-124873.1351972234917724609375) + t * (1775840.85940780240625 + t * (-5789128.656876938))))))) + ((-16.3735045370698311619873046875) + t * (38.26496724430657265625 + t * (-380.19778216022763))) * S ^ 1 + ((-1.14030901596907010009765625) + t * ((-180.988246137916728125) + t * 725.6024119989094)) * S ^ 2 + ((-22.2089895057358130126953125) + t * ((-251.89590073954015625) + t * 1941.8836639529036)) * S ^ 3 + ((-32.30029222023979661376953125) + t * ((-57.783951335380435625) + t * 1320.102640190539)) * S ^ 4 - 148.17317525117338 * y) * k) := by
  interval_bnb [ht, hS, hw, hk] [hy]

lemma pd_6 (e S y w k : ℝ) (he : 0.09375 ≤ e ∧ e ≤ 0.109375) (hS : -1 ≤ S ∧ S ≤ 1)
    (hk : 0.15915 ≤ k ∧ k ≤ 0.159156) (hw : -2 ≤ w ∧ w ≤ 2) (hy : y = e ^ 2 * w) : -2.5 < pdk e S y k ∧ pdk e S y k < 55 := by
  have ht : -0.0078125 ≤ e - 0.1015625 ∧ e - 0.1015625 ≤ 0.0078125 := by constructor <;> linarith [he.1, he.2]
  have a := pd_lo6 (e - 0.1015625) S y w k ht hS hk hw (by rw [hy]; ring)
  have b := pd_hi6 (e - 0.1015625) S y w k ht hS hk hw (by rw [hy]; ring)
  have a' : 0 < 2.5 + pdk e S y k := lt_of_lt_of_eq a (by unfold pdk; ring)
  have b' : 0 < 55 - pdk e S y k := lt_of_lt_of_eq b (by unfold pdk; ring)
  constructor <;> linarith

lemma pn_lo6 (t k : ℝ) (ht : -0.0078125 ≤ t ∧ t ≤ 0.0078125) (hk : 0.15915 ≤ k ∧ k ≤ 0.159156) :
    0 < 500 + (8.5842454849724436497335135936737060546875 + t * (12.5705896879425651927947998046875 + t * (84.2395883982540850830078125 + t * ((-3351.91449836676903125) + t * 16026.897939722587)))) - (3160.50539522851459876570349078974686563014984130859375 + t * ((-156.493589563708502336809597909450531005859375) + t * (894.373696373428234175741672515869140625 + t * ((-7988.125239416907420196533203125) + t * ((-124873.1351972234917724609375) + t * (1775840.85940780240625 + t * (-5789128.656876938))))))) * k - 4.1 := by
  interval_bnb [ht, hk] []

lemma pn_hi6 (t k : ℝ) (ht : -0.0078125 ≤ t ∧ t ≤ 0.0078125) (hk : 0.15915 ≤ k ∧ k ≤ 0.159156) :
    0 < 11.3 - (500 + (8.5842454849724436497335135936737060546875 + t * (12.5705896879425651927947998046875 + t * (84.2395883982540850830078125 + t * ((-3351.91449836676903125) + t * 16026.897939722587)))) - (3160.50539522851459876570349078974686563014984130859375 + t * ((-156.493589563708502336809597909450531005859375) + t * (894.373696373428234175741672515869140625 + t * ((-7988.125239416907420196533203125) + t * ((-124873.1351972234917724609375) + t * (1775840.85940780240625 + t * (-5789128.656876938))))))) * k) := by
  interval_bnb [ht, hk] []

lemma pn_6 (e k : ℝ) (he : 0.09375 ≤ e ∧ e ≤ 0.109375) (hk : 0.15915 ≤ k ∧ k ≤ 0.159156) :
    4.1 < pdk e 0 0 k ∧ pdk e 0 0 k < 11.3 := by
  have ht : -0.0078125 ≤ e - 0.1015625 ∧ e - 0.1015625 ≤ 0.0078125 := by constructor <;> linarith [he.1, he.2]
  have a := pn_lo6 (e - 0.1015625) k ht hk
  have b := pn_hi6 (e - 0.1015625) k ht hk
  have a' : 0 < pdk e 0 0 k - 4.1 := lt_of_lt_of_eq a (by unfold pdk; ring)
  have b' : 0 < 11.3 - pdk e 0 0 k := lt_of_lt_of_eq b (by unfold pdk; ring)
  constructor <;> linarith

lemma pd_lo7 (t S y w k : ℝ) (ht : -0.0078125 ≤ t ∧ t ≤ 0.0078125) (hS : -1 ≤ S ∧ S ≤ 1)
    (hk : 0.15915 ≤ k ∧ k ≤ 0.159156) (hw : -2 ≤ w ∧ w ≤ 2) (hy : y = (0.1171875 + t) ^ 2 * w) :
    0 < 2.5 + (500 + ((8.7893959930948588294272124767303466796875 + t * (12.9926123786429747348785400390625 + t * ((-49.4045024337977049560546875) + t * ((-2350.23337713410734375) + t * 16026.897939722587)))) + ((-5.946711770862113677978515625) + t * ((-20.1836586497509334375) + t * 609.5575850476959)) * S ^ 1 + ((-4.858252904944249286962890625) + t * ((-9.1774799560696159375) + t * 376.9200932531847)) * S ^ 2 + (21.36176732721532884619140625 + t * ((-39.844168259854730625) + t * (-755.9566456906406))) * S ^ 3 + (20.094742674506256878173828125 + t * ((-29.8813062027608778125) + t * (-764.5242164872267))) * S ^ 4 + 105.37711654943146 * y) - ((3158.24219018419595891570361200137995183467864990234375 + t * ((-135.803609506394787781298346817493438720703125) + t * (399.577762487601026605665683746337890625 + t * ((-11898.822681234591247406005859375) + t * ((-7335.9903834191216552734375) + t * (1233110.04782558946875 + t * (-5789128.656876938))))))) + ((-15.8684361480377527879638671875) + t * (26.38378655179945921875 + t * (-380.19778216022763))) * S ^ 1 + ((-3.79110133550709773681640625) + t * ((-158.313170762950809375) + t * 725.6024119989094)) * S ^ 2 + ((-25.6707702633963760986328125) + t * ((-191.21203624101191875) + t * 1941.8836639529036)) * S ^ 3 + ((-32.88087577621484760986328125) + t * ((-16.530743829426091875) + t * 1320.102640190539)) * S ^ 4 - 148.17317525117338 * y) * k) := by
  interval_bnb [ht, hS, hw, hk] [hy]

lemma pd_hi7 (t S y w k : ℝ) (ht : -0.0078125 ≤ t ∧ t ≤ 0.0078125) (hS : -1 ≤ S ∧ S ≤ 1)
    (hk : 0.15915 ≤ k ∧ k ≤ 0.159156) (hw : -2 ≤ w ∧ w ≤ 2) (hy : y = (0.1171875 + t) ^ 2 * w) :
    0 < 55 - (500 + ((8.7893959930948588294272124767303466796875 + t * (12.9926123786429747348785400390625 + t * ((-49.4045024337977049560546875) + t * ((-2350.23337713410734375) + t * 16026.897939722587)))) + ((-5.946711770862113677978515625) + t * ((-20.1836586497509334375) + t * 609.5575850476959)) * S ^ 1 + ((-4.858252904944249286962890625) + t * ((-9.1774799560696159375) + t * 376.9200932531847)) * S ^ 2 + (21.36176732721532884619140625 + t * ((-39.844168259854730625) + t * (-755.9566456906406))) * S ^ 3 + (20.094742674506256878173828125 + t * ((-29.8813062027608778125) + t * (-764.5242164872267))) * S ^ 4 + 105.37711654943146 * y) - ((3158.24219018419595891570361200137995183467864990234375 + t * ((-135.803609506394787781298346817493438720703125) + t * (399.577762487601026605665683746337890625 + t * ((-11898.822681234591247406005859375) + t * ((-7335.9903834191216552734375) + t * (1233110.04782558946875 + t * (-5789128.656876938))))))) + ((-15.8684361480377527879638671875) + t * (26.38378655179945921875 + t * (-380.19778216022763))) * S ^ 1 + ((-3.79110133550709773681640625) + t * ((-158.313170762950809375) + t * 725.6024119989094)) * S ^ 2 + ((-25.6707702633963760986328125) + t * ((-191.21203624101191875) + t * 1941.8836639529036)) * S ^ 3 + ((-32.88087577621484760986328125) + t * ((-16.530743829426091875) + t * 1320.102640190539)) * S ^ 4 - 148.17317525117338 * y) * k) := by
  interval_bnb [ht, hS, hw, hk] [hy]

lemma pd_7 (e S y w k : ℝ) (he : 0.109375 ≤ e ∧ e ≤ 0.125) (hS : -1 ≤ S ∧ S ≤ 1)
    (hk : 0.15915 ≤ k ∧ k ≤ 0.159156) (hw : -2 ≤ w ∧ w ≤ 2) (hy : y = e ^ 2 * w) : -2.5 < pdk e S y k ∧ pdk e S y k < 55 := by
  have ht : -0.0078125 ≤ e - 0.1171875 ∧ e - 0.1171875 ≤ 0.0078125 := by constructor <;> linarith [he.1, he.2]
  have a := pd_lo7 (e - 0.1171875) S y w k ht hS hk hw (by rw [hy]; ring)
  have b := pd_hi7 (e - 0.1171875) S y w k ht hS hk hw (by rw [hy]; ring)
  have a' : 0 < 2.5 + pdk e S y k := lt_of_lt_of_eq a (by unfold pdk; ring)
  have b' : 0 < 55 - pdk e S y k := lt_of_lt_of_eq b (by unfold pdk; ring)
  constructor <;> linarith

lemma pn_lo7 (t k : ℝ) (ht : -0.0078125 ≤ t ∧ t ≤ 0.0078125) (hk : 0.15915 ≤ k ∧ k ≤ 0.159156) :
    0 < 500 + (8.7893959930948588294272124767303466796875 + t * (12.9926123786429747348785400390625 + t * ((-49.4045024337977049560546875) + t * ((-2350.23337713410734375) + t * 16026.897939722587)))) - (3158.24219018419595891570361200137995183467864990234375 + t * ((-135.803609506394787781298346817493438720703125) + t * (399.577762487601026605665683746337890625 + t * ((-11898.822681234591247406005859375) + t * ((-7335.9903834191216552734375) + t * (1233110.04782558946875 + t * (-5789128.656876938))))))) * k - 4.1 := by
  interval_bnb [ht, hk] []

lemma pn_hi7 (t k : ℝ) (ht : -0.0078125 ≤ t ∧ t ≤ 0.0078125) (hk : 0.15915 ≤ k ∧ k ≤ 0.159156) :
    0 < 11.3 - (500 + (8.7893959930948588294272124767303466796875 + t * (12.9926123786429747348785400390625 + t * ((-49.4045024337977049560546875) + t * ((-2350.23337713410734375) + t * 16026.897939722587)))) - (3158.24219018419595891570361200137995183467864990234375 + t * ((-135.803609506394787781298346817493438720703125) + t * (399.577762487601026605665683746337890625 + t * ((-11898.822681234591247406005859375) + t * ((-7335.9903834191216552734375) + t * (1233110.04782558946875 + t * (-5789128.656876938))))))) * k) := by
  interval_bnb [ht, hk] []

lemma pn_7 (e k : ℝ) (he : 0.109375 ≤ e ∧ e ≤ 0.125) (hk : 0.15915 ≤ k ∧ k ≤ 0.159156) :
    4.1 < pdk e 0 0 k ∧ pdk e 0 0 k < 11.3 := by
  have ht : -0.0078125 ≤ e - 0.1171875 ∧ e - 0.1171875 ≤ 0.0078125 := by constructor <;> linarith [he.1, he.2]
  have a := pn_lo7 (e - 0.1171875) k ht hk
  have b := pn_hi7 (e - 0.1171875) k ht hk
  have a' : 0 < pdk e 0 0 k - 4.1 := lt_of_lt_of_eq a (by unfold pdk; ring)
  have b' : 0 < 11.3 - pdk e 0 0 k := lt_of_lt_of_eq b (by unfold pdk; ring)
  constructor <;> linarith

lemma pd_lo8 (t S y k : ℝ) (ht : -0.0078125 ≤ t ∧ t ≤ 0.0078125) (hS : -1 ≤ S ∧ S ≤ 1)
    (hk : 0.15915 ≤ k ∧ k ≤ 0.159156) (hy : -0.0358 ≤ y ∧ y ≤ 0.0358) :
    0 < 2.5 + (500 + ((8.9723337641303684328322112560272216796875 + t * (9.9719103958070942226409912109375 + t * ((-136.0947907080684783935546875) + t * ((-1348.55225590144565625) + t * 16026.897939722587)))) + ((-6.113263667477436881103515625) + t * ((-1.1349841170104365625) + t * 609.5575850476959)) * S ^ 1 + ((-4.909629522115946240087890625) + t * (2.6012729580924059375 + t * 376.9200932531847)) * S ^ 2 + (20.55464247020328212744140625 + t * ((-63.467813437687249375) + t * (-755.9566456906406))) * S ^ 3 + (19.441195845047291331298828125 + t * ((-53.7726879679867121875) + t * (-764.5242164872267))) * S ^ 4 + 105.37711654943146 * y) - ((3156.17304846519628728273451197310350835323333740234375 + t * ((-131.808554622349714447831921279430389404296875) + t * ((-127.062099439214912801682949066162109375) + t * ((-9788.474967653888996734619140625) + t * (67800.3097755248627197265625 + t * (690379.23624337653125 + t * (-5789128.656876938))))))) + ((-15.5490112073260980614013671875) + t * (14.50260585929234578125 + t * (-380.19778216022763))) * S ^ 1 + ((-6.08759560231128289306640625) + t * ((-135.638095387984890625) + t * 725.6024119989094)) * S ^ 2 + ((-28.1843656382674354736328125) + t * ((-130.52817174248368125) + t * 1941.8836639529036)) * S ^ 3 + ((-32.81687796490936198486328125) + t * (24.722463676528251875 + t * 1320.102640190539)) * S ^ 4 - 148.17317525117338 * y) * k) := by
  interval_bnb [ht, hS, hy, hk] []

lemma pd_hi8 (t S y k : ℝ) (ht : -0.0078125 ≤ t ∧ t ≤ 0.0078125) (hS : -1 ≤ S ∧ S ≤ 1)
    (hk : 0.15915 ≤ k ∧ k ≤ 0.159156) (hy : -0.0358 ≤ y ∧ y ≤ 0.0358) :
    0 < 55 - (500 + ((8.9723337641303684328322112560272216796875 + t * (9.9719103958070942226409912109375 + t * ((-136.0947907080684783935546875) + t * ((-1348.55225590144565625) + t * 16026.897939722587)))) + ((-6.113263667477436881103515625) + t * ((-1.1349841170104365625) + t * 609.5575850476959)) * S ^ 1 + ((-4.909629522115946240087890625) + t * (2.6012729580924059375 + t * 376.9200932531847)) * S ^ 2 + (20.55464247020328212744140625 + t * ((-63.467813437687249375) + t * (-755.9566456906406))) * S ^ 3 + (19.441195845047291331298828125 + t * ((-53.7726879679867121875) + t * (-764.5242164872267))) * S ^ 4 + 105.37711654943146 * y) - ((3156.17304846519628728273451197310350835323333740234375 + t * ((-131.808554622349714447831921279430389404296875) + t * ((-127.062099439214912801682949066162109375) + t * ((-9788.474967653888996734619140625) + t * (67800.3097755248627197265625 + t * (690379.23624337653125 + t * (-5789128.656876938))))))) + ((-15.5490112073260980614013671875) + t * (14.50260585929234578125 + t * (-380.19778216022763))) * S ^ 1 + ((-6.08759560231128289306640625) + t * ((-135.638095387984890625) + t * 725.6024119989094)) * S ^ 2 + ((-28.1843656382674354736328125) + t * ((-130.52817174248368125) + t * 1941.8836639529036)) * S ^ 3 + ((-32.81687796490936198486328125) + t * (24.722463676528251875 + t * 1320.102640190539)) * S ^ 4 - 148.17317525117338 * y) * k) := by
  interval_bnb [ht, hS, hy, hk] []

lemma pd_8 (e S y k : ℝ) (he : 0.125 ≤ e ∧ e ≤ 0.140625) (hS : -1 ≤ S ∧ S ≤ 1)
    (hk : 0.15915 ≤ k ∧ k ≤ 0.159156) (hy : -0.0358 ≤ y ∧ y ≤ 0.0358) : -2.5 < pdk e S y k ∧ pdk e S y k < 55 := by
  have ht : -0.0078125 ≤ e - 0.1328125 ∧ e - 0.1328125 ≤ 0.0078125 := by constructor <;> linarith [he.1, he.2]
  have a := pd_lo8 (e - 0.1328125) S y k ht hS hk hy
  have b := pd_hi8 (e - 0.1328125) S y k ht hS hk hy
  have a' : 0 < 2.5 + pdk e S y k := lt_of_lt_of_eq a (by unfold pdk; ring)
  have b' : 0 < 55 - pdk e S y k := lt_of_lt_of_eq b (by unfold pdk; ring)
  constructor <;> linarith

lemma pn_lo8 (t k : ℝ) (ht : -0.0078125 ≤ t ∧ t ≤ 0.0078125) (hk : 0.15915 ≤ k ∧ k ≤ 0.159156) :
    0 < 500 + (8.9723337641303684328322112560272216796875 + t * (9.9719103958070942226409912109375 + t * ((-136.0947907080684783935546875) + t * ((-1348.55225590144565625) + t * 16026.897939722587)))) - (3156.17304846519628728273451197310350835323333740234375 + t * ((-131.808554622349714447831921279430389404296875) + t * ((-127.062099439214912801682949066162109375) + t * ((-9788.474967653888996734619140625) + t * (67800.3097755248627197265625 + t * (690379.23624337653125 + t * (-5789128.656876938))))))) * k - 4.1 := by
  interval_bnb [ht, hk] []

lemma pn_hi8 (t k : ℝ) (ht : -0.0078125 ≤ t ∧ t ≤ 0.0078125) (hk : 0.15915 ≤ k ∧ k ≤ 0.159156) :
    0 < 11.3 - (500 + (8.9723337641303684328322112560272216796875 + t * (9.9719103958070942226409912109375 + t * ((-136.0947907080684783935546875) + t * ((-1348.55225590144565625) + t * 16026.897939722587)))) - (3156.17304846519628728273451197310350835323333740234375 + t * ((-131.808554622349714447831921279430389404296875) + t * ((-127.062099439214912801682949066162109375) + t * ((-9788.474967653888996734619140625) + t * (67800.3097755248627197265625 + t * (690379.23624337653125 + t * (-5789128.656876938))))))) * k) := by
  interval_bnb [ht, hk] []

lemma pn_8 (e k : ℝ) (he : 0.125 ≤ e ∧ e ≤ 0.140625) (hk : 0.15915 ≤ k ∧ k ≤ 0.159156) :
    4.1 < pdk e 0 0 k ∧ pdk e 0 0 k < 11.3 := by
  have ht : -0.0078125 ≤ e - 0.1328125 ∧ e - 0.1328125 ≤ 0.0078125 := by constructor <;> linarith [he.1, he.2]
  have a := pn_lo8 (e - 0.1328125) k ht hk
  have b := pn_hi8 (e - 0.1328125) k ht hk
  have a' : 0 < pdk e 0 0 k - 4.1 := lt_of_lt_of_eq a (by unfold pdk; ring)
  have b' : 0 < 11.3 - pdk e 0 0 k := lt_of_lt_of_eq b (by unfold pdk; ring)
  constructor <;> linarith

lemma pd_lo9 (t S y k : ℝ) (ht : -0.0078125 ≤ t ∧ t ≤ 0.0078125) (hS : -1 ≤ S ∧ S ≤ 1)
    (hk : 0.15915 ≤ k ∧ k ≤ 0.159156) (hy : -0.0358 ≤ y ∧ y ≤ 0.0358) :
    0 < 2.5 + (500 + ((9.0907295557575511838559806346893310546875 + t * (4.9757900693655804248809814453125 + t * ((-175.8312764245582352294921875) + t * ((-346.87113466878396875) + t * 16026.897939722587)))) + ((-5.982180024518689820556640625) + t * (17.9136904157300603125 + t * 609.5575850476959)) * S ^ 1 + ((-4.776963125003861601416015625) + t * (14.3800258722544278125 + t * 376.9200932531847)) * S ^ 2 + (19.37839815728760230322265625 + t * ((-87.091458615519768125) + t * (-755.9566456906406))) * S ^ 3 + (18.414346175506672122314453125 + t * ((-77.6640697332125465625) + t * (-764.5242164872267))) * S ^ 4 + 105.37711654943146 * y) - ((3154.04977864639555273607253548107109963893890380859375 + t * ((-141.740588025337973144617117941379547119140625) + t * ((-465.420010035113379822671413421630859375) + t * ((-4307.134889603574777069091796875) + t * (100535.7652796084613525390625 + t * (147648.42466116359375 + t * (-5789128.656876938))))))) + ((-15.4152297149348669822998046875) + t * (2.62142516678523234375 + t * (-380.19778216022763))) * S ^ 1 + ((-8.02979181638162556884765625) + t * ((-112.963020013018971875) + t * 725.6024119989094)) * S ^ 2 + ((-29.7497756303489911376953125) + t * ((-69.84430724395544375) + t * 1941.8836639529036)) * S ^ 3 + ((-32.10829878632333973876953125) + t * (65.975671182482595625 + t * 1320.102640190539)) * S ^ 4 - 148.17317525117338 * y) * k) := by
  interval_bnb [ht, hS, hy, hk] []

lemma pd_hi9 (t S y k : ℝ) (ht : -0.0078125 ≤ t ∧ t ≤ 0.0078125) (hS : -1 ≤ S ∧ S ≤ 1)
    (hk : 0.15915 ≤ k ∧ k ≤ 0.159156) (hy : -0.0358 ≤ y ∧ y ≤ 0.0358) :
    0 < 55 - (500 + ((9.0907295557575511838559806346893310546875 + t * (4.9757900693655804248809814453125 + t * ((-175.8312764245582352294921875) + t * ((-346.87113466878396875) + t * 16026.897939722587)))) + ((-5.982180024518689820556640625) + t * (17.9136904157300603125 + t * 609.5575850476959)) * S ^ 1 + ((-4.776963125003861601416015625) + t * (14.3800258722544278125 + t * 376.9200932531847)) * S ^ 2 + (19.37839815728760230322265625 + t * ((-87.091458615519768125) + t * (-755.9566456906406))) * S ^ 3 + (18.414346175506672122314453125 + t * ((-77.6640697332125465625) + t * (-764.5242164872267))) * S ^ 4 + 105.37711654943146 * y) - ((3154.04977864639555273607253548107109963893890380859375 + t * ((-141.740588025337973144617117941379547119140625) + t * ((-465.420010035113379822671413421630859375) + t * ((-4307.134889603574777069091796875) + t * (100535.7652796084613525390625 + t * (147648.42466116359375 + t * (-5789128.656876938))))))) + ((-15.4152297149348669822998046875) + t * (2.62142516678523234375 + t * (-380.19778216022763))) * S ^ 1 + ((-8.02979181638162556884765625) + t * ((-112.963020013018971875) + t * 725.6024119989094)) * S ^ 2 + ((-29.7497756303489911376953125) + t * ((-69.84430724395544375) + t * 1941.8836639529036)) * S ^ 3 + ((-32.10829878632333973876953125) + t * (65.975671182482595625 + t * 1320.102640190539)) * S ^ 4 - 148.17317525117338 * y) * k) := by
  interval_bnb [ht, hS, hy, hk] []

lemma pd_9 (e S y k : ℝ) (he : 0.140625 ≤ e ∧ e ≤ 0.15625) (hS : -1 ≤ S ∧ S ≤ 1)
    (hk : 0.15915 ≤ k ∧ k ≤ 0.159156) (hy : -0.0358 ≤ y ∧ y ≤ 0.0358) : -2.5 < pdk e S y k ∧ pdk e S y k < 55 := by
  have ht : -0.0078125 ≤ e - 0.1484375 ∧ e - 0.1484375 ≤ 0.0078125 := by constructor <;> linarith [he.1, he.2]
  have a := pd_lo9 (e - 0.1484375) S y k ht hS hk hy
  have b := pd_hi9 (e - 0.1484375) S y k ht hS hk hy
  have a' : 0 < 2.5 + pdk e S y k := lt_of_lt_of_eq a (by unfold pdk; ring)
  have b' : 0 < 55 - pdk e S y k := lt_of_lt_of_eq b (by unfold pdk; ring)
  constructor <;> linarith

lemma pn_lo9 (t k : ℝ) (ht : -0.0078125 ≤ t ∧ t ≤ 0.0078125) (hk : 0.15915 ≤ k ∧ k ≤ 0.159156) :
    0 < 500 + (9.0907295557575511838559806346893310546875 + t * (4.9757900693655804248809814453125 + t * ((-175.8312764245582352294921875) + t * ((-346.87113466878396875) + t * 16026.897939722587)))) - (3154.04977864639555273607253548107109963893890380859375 + t * ((-141.740588025337973144617117941379547119140625) + t * ((-465.420010035113379822671413421630859375) + t * ((-4307.134889603574777069091796875) + t * (100535.7652796084613525390625 + t * (147648.42466116359375 + t * (-5789128.656876938))))))) * k - 4.1 := by
  interval_bnb [ht, hk] []

lemma pn_hi9 (t k : ℝ) (ht : -0.0078125 ≤ t ∧ t ≤ 0.0078125) (hk : 0.15915 ≤ k ∧ k ≤ 0.159156) :
    0 < 11.3 - (500 + (9.0907295557575511838559806346893310546875 + t * (4.9757900693655804248809814453125 + t * ((-175.8312764245582352294921875) + t * ((-346.87113466878396875) + t * 16026.897939722587)))) - (3154.04977864639555273607253548107109963893890380859375 + t * ((-141.740588025337973144617117941379547119140625) + t * ((-465.420010035113379822671413421630859375) + t * ((-4307.134889603574777069091796875) + t * (100535.7652796084613525390625 + t * (147648.42466116359375 + t * (-5789128.656876938))))))) * k) := by
  interval_bnb [ht, hk] []

lemma pn_9 (e k : ℝ) (he : 0.140625 ≤ e ∧ e ≤ 0.15625) (hk : 0.15915 ≤ k ∧ k ≤ 0.159156) :
    4.1 < pdk e 0 0 k ∧ pdk e 0 0 k < 11.3 := by
  have ht : -0.0078125 ≤ e - 0.1484375 ∧ e - 0.1484375 ≤ 0.0078125 := by constructor <;> linarith [he.1, he.2]
  have a := pn_lo9 (e - 0.1484375) k ht hk
  have b := pn_hi9 (e - 0.1484375) k ht hk
  have a' : 0 < pdk e 0 0 k - 4.1 := lt_of_lt_of_eq a (by unfold pdk; ring)
  have b' : 0 < 11.3 - pdk e 0 0 k := lt_of_lt_of_eq b (by unfold pdk; ring)
  constructor <;> linarith

lemma pd_lo10 (t S y k : ℝ) (ht : -0.0078125 ≤ t ∧ t ≤ 0.0078125) (hS : -1 ≤ S ∧ S ≤ 1)
    (hk : 0.15915 ≤ k ∧ k ≤ 0.159156) (hy : -0.0358 ≤ y ∧ y ≤ 0.0358) :
    0 < 2.5 + (500 + ((9.1251807870601523184184730052947998046875 + t * ((-0.5284422707509098896026611328125) + t * ((-168.6139595832669754638671875) + t * (654.80998656387771875 + t * 16026.897939722587)))) + ((-5.553460841985872496337890625) + t * (36.9623649484705571875 + t * 609.5575850476959)) * S ^ 1 + ((-4.460253713607995370947265625) + t * (26.1587787864164496875 + t * 376.9200932531847)) * S ^ 2 + (17.83303438846828937353515625 + t * ((-110.715103793352286875) + t * (-755.9566456906406))) * S ^ 3 + (17.014193665884399251220703125 + t * ((-101.5554514984383809375) + t * (-764.5242164872267))) * S ^ 4 + 105.37711654943146 * y) - ((3151.71106927465436474485902799642644822597503662109375 + t * ((-157.893895732733221522154472768306732177734375) + t * ((-519.591314502974456587731838226318359375) + t * (1895.144761987577302703857421875 + t * (90870.3761288316742431640625 + t * ((-395082.38692104934375) + t * (-5789128.656876938))))))) + ((-15.4670916708640595506591796875) + t * ((-9.25975552572188109375) + t * (-380.19778216022763))) * S ^ 1 + ((-9.61768997771812576416015625) + t * ((-90.287944638053053125) + t * 725.6024119989094)) * S ^ 2 + ((-30.3670002396410430908203125) + t * ((-9.16044274542720625) + t * 1941.8836639529036)) * S ^ 3 + ((-30.75513824045678087158203125) + t * (107.228878688436939375 + t * 1320.102640190539)) * S ^ 4 - 148.17317525117338 * y) * k) := by
  interval_bnb [ht, hS, hy, hk] []

lemma pd_hi10 (t S y k : ℝ) (ht : -0.0078125 ≤ t ∧ t ≤ 0.0078125) (hS : -1 ≤ S ∧ S ≤ 1)
    (hk : 0.15915 ≤ k ∧ k ≤ 0.159156) (hy : -0.0358 ≤ y ∧ y ≤ 0.0358) :
    0 < 55 - (500 + ((9.1251807870601523184184730052947998046875 + t * ((-0.5284422707509098896026611328125) + t * ((-168.6139595832669754638671875) + t * (654.80998656387771875 + t * 16026.897939722587)))) + ((-5.553460841985872496337890625) + t * (36.9623649484705571875 + t * 609.5575850476959)) * S ^ 1 + ((-4.460253713607995370947265625) + t * (26.1587787864164496875 + t * 376.9200932531847)) * S ^ 2 + (17.83303438846828937353515625 + t * ((-110.715103793352286875) + t * (-755.9566456906406))) * S ^ 3 + (17.014193665884399251220703125 + t * ((-101.5554514984383809375) + t * (-764.5242164872267))) * S ^ 4 + 105.37711654943146 * y) - ((3151.71106927465436474485902799642644822597503662109375 + t * ((-157.893895732733221522154472768306732177734375) + t * ((-519.591314502974456587731838226318359375) + t * (1895.144761987577302703857421875 + t * (90870.3761288316742431640625 + t * ((-395082.38692104934375) + t * (-5789128.656876938))))))) + ((-15.4670916708640595506591796875) + t * ((-9.25975552572188109375) + t * (-380.19778216022763))) * S ^ 1 + ((-9.61768997771812576416015625) + t * ((-90.287944638053053125) + t * 725.6024119989094)) * S ^ 2 + ((-30.3670002396410430908203125) + t * ((-9.16044274542720625) + t * 1941.8836639529036)) * S ^ 3 + ((-30.75513824045678087158203125) + t * (107.228878688436939375 + t * 1320.102640190539)) * S ^ 4 - 148.17317525117338 * y) * k) := by
  interval_bnb [ht, hS, hy, hk] []

lemma pd_10 (e S y k : ℝ) (he : 0.15625 ≤ e ∧ e ≤ 0.171875) (hS : -1 ≤ S ∧ S ≤ 1)
    (hk : 0.15915 ≤ k ∧ k ≤ 0.159156) (hy : -0.0358 ≤ y ∧ y ≤ 0.0358) : -2.5 < pdk e S y k ∧ pdk e S y k < 55 := by
  have ht : -0.0078125 ≤ e - 0.1640625 ∧ e - 0.1640625 ≤ 0.0078125 := by constructor <;> linarith [he.1, he.2]
  have a := pd_lo10 (e - 0.1640625) S y k ht hS hk hy
  have b := pd_hi10 (e - 0.1640625) S y k ht hS hk hy
  have a' : 0 < 2.5 + pdk e S y k := lt_of_lt_of_eq a (by unfold pdk; ring)
  have b' : 0 < 55 - pdk e S y k := lt_of_lt_of_eq b (by unfold pdk; ring)
  constructor <;> linarith

lemma pn_lo10 (t k : ℝ) (ht : -0.0078125 ≤ t ∧ t ≤ 0.0078125) (hk : 0.15915 ≤ k ∧ k ≤ 0.159156) :
    0 < 500 + (9.1251807870601523184184730052947998046875 + t * ((-0.5284422707509098896026611328125) + t * ((-168.6139595832669754638671875) + t * (654.80998656387771875 + t * 16026.897939722587)))) - (3151.71106927465436474485902799642644822597503662109375 + t * ((-157.893895732733221522154472768306732177734375) + t * ((-519.591314502974456587731838226318359375) + t * (1895.144761987577302703857421875 + t * (90870.3761288316742431640625 + t * ((-395082.38692104934375) + t * (-5789128.656876938))))))) * k - 4.1 := by
  interval_bnb [ht, hk] []

lemma pn_hi10 (t k : ℝ) (ht : -0.0078125 ≤ t ∧ t ≤ 0.0078125) (hk : 0.15915 ≤ k ∧ k ≤ 0.159156) :
    0 < 11.3 - (500 + (9.1251807870601523184184730052947998046875 + t * ((-0.5284422707509098896026611328125) + t * ((-168.6139595832669754638671875) + t * (654.80998656387771875 + t * 16026.897939722587)))) - (3151.71106927465436474485902799642644822597503662109375 + t * ((-157.893895732733221522154472768306732177734375) + t * ((-519.591314502974456587731838226318359375) + t * (1895.144761987577302703857421875 + t * (90870.3761288316742431640625 + t * ((-395082.38692104934375) + t * (-5789128.656876938))))))) * k) := by
  interval_bnb [ht, hk] []

lemma pn_10 (e k : ℝ) (he : 0.15625 ≤ e ∧ e ≤ 0.171875) (hk : 0.15915 ≤ k ∧ k ≤ 0.159156) :
    4.1 < pdk e 0 0 k ∧ pdk e 0 0 k < 11.3 := by
  have ht : -0.0078125 ≤ e - 0.1640625 ∧ e - 0.1640625 ≤ 0.0078125 := by constructor <;> linarith [he.1, he.2]
  have a := pn_lo10 (e - 0.1640625) k ht hk
  have b := pn_hi10 (e - 0.1640625) k ht hk
  have a' : 0 < pdk e 0 0 k - 4.1 := lt_of_lt_of_eq a (by unfold pdk; ring)
  have b' : 0 < 11.3 - pdk e 0 0 k := lt_of_lt_of_eq b (by unfold pdk; ring)
  constructor <;> linarith

lemma pd_lo11 (t S y k : ℝ) (ht : -0.0078125 ≤ t ∧ t ≤ 0.0078125) (hS : -1 ≤ S ∧ S ≤ 1)
    (hk : 0.15915 ≤ k ∧ k ≤ 0.159156) (hy : -0.0358 ≤ y ∧ y ≤ 0.0358) :
    0 < 2.5 + (500 + ((9.0792115385270835844521224498748779296875 + t * ((-5.0734802946117199520111083984375) + t * ((-114.4428401841946990966796875) + t * (1656.49110779653940625 + t * 16026.897939722587)))) + ((-4.827106119878984908447265625) + t * (56.0110394812110540625 + t * 609.5575850476959)) * S ^ 1 + ((-3.959501287928347548681640625) + t * (37.9375317005784715625 + t * 376.9200932531847)) * S ^ 2 + (15.91855116374534333837890625 + t * ((-134.338748971184805625) + t * (-755.9566456906406))) * S ^ 3 + (15.240738316180472718017578125 + t * ((-125.4468332636642153125) + t * (-764.5242164872267))) * S ^ 4 + 105.37711654943146 * y) - ((3149.12931731353912958799758562236092984676361083984375 + t * ((-171.506599933480155521802790462970733642578125) + t * ((-317.892582620464511581361293792724609375) + t * (6168.311196190793133697509765625 + t * (38804.1423231945013916015625 + t * ((-937813.19850326228125) + t * (-5789128.656876938))))))) + ((-15.7045970751136757664794921875) + t * ((-21.14093621822899453125) + t * (-380.19778216022763))) * S ^ 1 + ((-10.85129008632078347900390625) + t * ((-67.612869263087134375) + t * 725.6024119989094)) * S ^ 2 + ((-30.0360394661435913330078125) + t * (51.52342175310103125 + t * 1941.8836639529036)) * S ^ 3 + ((-28.75739632730968538330078125) + t * (148.482086194391283125 + t * 1320.102640190539)) * S ^ 4 - 148.17317525117338 * y) * k) := by
  interval_bnb [ht, hS, hy, hk] []

lemma pd_hi11 (t S y k : ℝ) (ht : -0.0078125 ≤ t ∧ t ≤ 0.0078125) (hS : -1 ≤ S ∧ S ≤ 1)
    (hk : 0.15915 ≤ k ∧ k ≤ 0.159156) (hy : -0.0358 ≤ y ∧ y ≤ 0.0358) :
    0 < 55 - (500 + ((9.0792115385270835844521224498748779296875 + t * ((-5.0734802946117199520111083984375) + t * ((-114.4428401841946990966796875) + t * (1656.49110779653940625 + t * 16026.897939722587)))) + ((-4.827106119878984908447265625) + t * (56.0110394812110540625 + t * 609.5575850476959)) * S ^ 1 + ((-3.959501287928347548681640625) + t * (37.9375317005784715625 + t * 376.9200932531847)) * S ^ 2 + (15.91855116374534333837890625 + t * ((-134.338748971184805625) + t * (-755.9566456906406))) * S ^ 3 + (15.240738316180472718017578125 + t * ((-125.4468332636642153125) + t * (-764.5242164872267))) * S ^ 4 + 105.37711654943146 * y) - ((3149.12931731353912958799758562236092984676361083984375 + t * ((-171.506599933480155521802790462970733642578125) + t * ((-317.892582620464511581361293792724609375) + t * (6168.311196190793133697509765625 + t * (38804.1423231945013916015625 + t * ((-937813.19850326228125) + t * (-5789128.656876938))))))) + ((-15.7045970751136757664794921875) + t * ((-21.14093621822899453125) + t * (-380.19778216022763))) * S ^ 1 + ((-10.85129008632078347900390625) + t * ((-67.612869263087134375) + t * 725.6024119989094)) * S ^ 2 + ((-30.0360394661435913330078125) + t * (51.52342175310103125 + t * 1941.8836639529036)) * S ^ 3 + ((-28.75739632730968538330078125) + t * (148.482086194391283125 + t * 1320.102640190539)) * S ^ 4 - 148.17317525117338 * y) * k) := by
  interval_bnb [ht, hS, hy, hk] []

lemma pd_11 (e S y k : ℝ) (he : 0.171875 ≤ e ∧ e ≤ 0.1875) (hS : -1 ≤ S ∧ S ≤ 1)
    (hk : 0.15915 ≤ k ∧ k ≤ 0.159156) (hy : -0.0358 ≤ y ∧ y ≤ 0.0358) : -2.5 < pdk e S y k ∧ pdk e S y k < 55 := by
  have ht : -0.0078125 ≤ e - 0.1796875 ∧ e - 0.1796875 ≤ 0.0078125 := by constructor <;> linarith [he.1, he.2]
  have a := pd_lo11 (e - 0.1796875) S y k ht hS hk hy
  have b := pd_hi11 (e - 0.1796875) S y k ht hS hk hy
  have a' : 0 < 2.5 + pdk e S y k := lt_of_lt_of_eq a (by unfold pdk; ring)
  have b' : 0 < 55 - pdk e S y k := lt_of_lt_of_eq b (by unfold pdk; ring)
  constructor <;> linarith

lemma pn_lo11 (t k : ℝ) (ht : -0.0078125 ≤ t ∧ t ≤ 0.0078125) (hk : 0.15915 ≤ k ∧ k ≤ 0.159156) :
    0 < 500 + (9.0792115385270835844521224498748779296875 + t * ((-5.0734802946117199520111083984375) + t * ((-114.4428401841946990966796875) + t * (1656.49110779653940625 + t * 16026.897939722587)))) - (3149.12931731353912958799758562236092984676361083984375 + t * ((-171.506599933480155521802790462970733642578125) + t * ((-317.892582620464511581361293792724609375) + t * (6168.311196190793133697509765625 + t * (38804.1423231945013916015625 + t * ((-937813.19850326228125) + t * (-5789128.656876938))))))) * k - 4.1 := by
  interval_bnb [ht, hk] []

lemma pn_hi11 (t k : ℝ) (ht : -0.0078125 ≤ t ∧ t ≤ 0.0078125) (hk : 0.15915 ≤ k ∧ k ≤ 0.159156) :
    0 < 11.3 - (500 + (9.0792115385270835844521224498748779296875 + t * ((-5.0734802946117199520111083984375) + t * ((-114.4428401841946990966796875) + t * (1656.49110779653940625 + t * 16026.897939722587)))) - (3149.12931731353912958799758562236092984676361083984375 + t * ((-171.506599933480155521802790462970733642578125) + t * ((-317.892582620464511581361293792724609375) + t * (6168.311196190793133697509765625 + t * (38804.1423231945013916015625 + t * ((-937813.19850326228125) + t * (-5789128.656876938))))))) * k) := by
  interval_bnb [ht, hk] []

lemma pn_11 (e k : ℝ) (he : 0.171875 ≤ e ∧ e ≤ 0.1875) (hk : 0.15915 ≤ k ∧ k ≤ 0.159156) :
    4.1 < pdk e 0 0 k ∧ pdk e 0 0 k < 11.3 := by
  have ht : -0.0078125 ≤ e - 0.1796875 ∧ e - 0.1796875 ≤ 0.0078125 := by constructor <;> linarith [he.1, he.2]
  have a := pn_lo11 (e - 0.1796875) k ht hk
  have b := pn_hi11 (e - 0.1796875) k ht hk
  have a' : 0 < pdk e 0 0 k - 4.1 := lt_of_lt_of_eq a (by unfold pdk; ring)
  have b' : 0 < 11.3 - pdk e 0 0 k := lt_of_lt_of_eq b (by unfold pdk; ring)
  constructor <;> linarith

lemma pd_lo12 (t S y k : ℝ) (ht : -0.0078125 ≤ t ∧ t ≤ 0.0078125) (hS : -1 ≤ S ∧ S ≤ 1)
    (hk : 0.15915 ≤ k ∧ k ≤ 0.159156) (hy : -0.0358 ≤ y ∧ y ≤ 0.0358) :
    0 < 2.5 + (500 + ((8.9792725520524232419018447399139404296875 + t * ((-7.1920176722861929935455322265625) + t * ((-13.3179182273414061279296875) + t * (2658.17222902920109375 + t * 16026.897939722587)))) + ((-3.803115858198027056884765625) + t * (75.0597140139515509375 + t * 609.5575850476959)) * S ^ 1 + ((-3.274705847964918134619140625) + t * (49.7162846147404934375 + t * 376.9200932531847)) * S ^ 2 + (13.63494848311876419775390625 + t * ((-157.962394149017324375) + t * (-755.9566456906406))) * S ^ 3 + (13.093980126394892522705078125 + t * ((-149.3382150288900496875) + t * (-764.5242164872267))) * S ^ 4 + 105.37711654943146 * y) - ((3146.39680169323529919766748425900004804134368896484375 + t * ((-176.642672256056580824343673884868621826171875) + t * ((-12.861608740036199642121791839599609375) + t * (5862.311622077298607025146484375 + t * ((-55662.9361373030572021484375) + t * ((-1480544.01008547521875) + t * (-5789128.656876938))))))) + ((-16.1277459276837156297607421875) + t * ((-33.02211691073610796875) + t * (-380.19778216022763))) * S ^ 1 + ((-11.73059214218959871337890625) + t * ((-44.937793888121215625) + t * 725.6024119989094)) * S ^ 2 + ((-28.7568933098566358642578125) + t * (112.20728625162926875 + t * 1941.8836639529036)) * S ^ 3 + ((-26.11507304688205327392578125) + t * (189.735293700345626875 + t * 1320.102640190539)) * S ^ 4 - 148.17317525117338 * y) * k) := by
  interval_bnb [ht, hS, hy, hk] []

lemma pd_hi12 (t S y k : ℝ) (ht : -0.0078125 ≤ t ∧ t ≤ 0.0078125) (hS : -1 ≤ S ∧ S ≤ 1)
    (hk : 0.15915 ≤ k ∧ k ≤ 0.159156) (hy : -0.0358 ≤ y ∧ y ≤ 0.0358) :
    0 < 55 - (500 + ((8.9792725520524232419018447399139404296875 + t * ((-7.1920176722861929935455322265625) + t * ((-13.3179182273414061279296875) + t * (2658.17222902920109375 + t * 16026.897939722587)))) + ((-3.803115858198027056884765625) + t * (75.0597140139515509375 + t * 609.5575850476959)) * S ^ 1 + ((-3.274705847964918134619140625) + t * (49.7162846147404934375 + t * 376.9200932531847)) * S ^ 2 + (13.63494848311876419775390625 + t * ((-157.962394149017324375) + t * (-755.9566456906406))) * S ^ 3 + (13.093980126394892522705078125 + t * ((-149.3382150288900496875) + t * (-764.5242164872267))) * S ^ 4 + 105.37711654943146 * y) - ((3146.39680169323529919766748425900004804134368896484375 + t * ((-176.642672256056580824343673884868621826171875) + t * ((-12.861608740036199642121791839599609375) + t * (5862.311622077298607025146484375 + t * ((-55662.9361373030572021484375) + t * ((-1480544.01008547521875) + t * (-5789128.656876938))))))) + ((-16.1277459276837156297607421875) + t * ((-33.02211691073610796875) + t * (-380.19778216022763))) * S ^ 1 + ((-11.73059214218959871337890625) + t * ((-44.937793888121215625) + t * 725.6024119989094)) * S ^ 2 + ((-28.7568933098566358642578125) + t * (112.20728625162926875 + t * 1941.8836639529036)) * S ^ 3 + ((-26.11507304688205327392578125) + t * (189.735293700345626875 + t * 1320.102640190539)) * S ^ 4 - 148.17317525117338 * y) * k) := by
  interval_bnb [ht, hS, hy, hk] []

lemma pd_12 (e S y k : ℝ) (he : 0.1875 ≤ e ∧ e ≤ 0.203125) (hS : -1 ≤ S ∧ S ≤ 1)
    (hk : 0.15915 ≤ k ∧ k ≤ 0.159156) (hy : -0.0358 ≤ y ∧ y ≤ 0.0358) : -2.5 < pdk e S y k ∧ pdk e S y k < 55 := by
  have ht : -0.0078125 ≤ e - 0.1953125 ∧ e - 0.1953125 ≤ 0.0078125 := by constructor <;> linarith [he.1, he.2]
  have a := pd_lo12 (e - 0.1953125) S y k ht hS hk hy
  have b := pd_hi12 (e - 0.1953125) S y k ht hS hk hy
  have a' : 0 < 2.5 + pdk e S y k := lt_of_lt_of_eq a (by unfold pdk; ring)
  have b' : 0 < 55 - pdk e S y k := lt_of_lt_of_eq b (by unfold pdk; ring)
  constructor <;> linarith

lemma pn_lo12 (t k : ℝ) (ht : -0.0078125 ≤ t ∧ t ≤ 0.0078125) (hk : 0.15915 ≤ k ∧ k ≤ 0.159156) :
    0 < 500 + (8.9792725520524232419018447399139404296875 + t * ((-7.1920176722861929935455322265625) + t * ((-13.3179182273414061279296875) + t * (2658.17222902920109375 + t * 16026.897939722587)))) - (3146.39680169323529919766748425900004804134368896484375 + t * ((-176.642672256056580824343673884868621826171875) + t * ((-12.861608740036199642121791839599609375) + t * (5862.311622077298607025146484375 + t * ((-55662.9361373030572021484375) + t * ((-1480544.01008547521875) + t * (-5789128.656876938))))))) * k - 4.1 := by
  interval_bnb [ht, hk] []

lemma pn_hi12 (t k : ℝ) (ht : -0.0078125 ≤ t ∧ t ≤ 0.0078125) (hk : 0.15915 ≤ k ∧ k ≤ 0.159156) :
    0 < 11.3 - (500 + (8.9792725520524232419018447399139404296875 + t * ((-7.1920176722861929935455322265625) + t * ((-13.3179182273414061279296875) + t * (2658.17222902920109375 + t * 16026.897939722587)))) - (3146.39680169323529919766748425900004804134368896484375 + t * ((-176.642672256056580824343673884868621826171875) + t * ((-12.861608740036199642121791839599609375) + t * (5862.311622077298607025146484375 + t * ((-55662.9361373030572021484375) + t * ((-1480544.01008547521875) + t * (-5789128.656876938))))))) * k) := by
  interval_bnb [ht, hk] []

lemma pn_12 (e k : ℝ) (he : 0.1875 ≤ e ∧ e ≤ 0.203125) (hk : 0.15915 ≤ k ∧ k ≤ 0.159156) :
    4.1 < pdk e 0 0 k ∧ pdk e 0 0 k < 11.3 := by
  have ht : -0.0078125 ≤ e - 0.1953125 ∧ e - 0.1953125 ≤ 0.0078125 := by constructor <;> linarith [he.1, he.2]
  have a := pn_lo12 (e - 0.1953125) k ht hk
  have b := pn_hi12 (e - 0.1953125) k ht hk
  have a' : 0 < pdk e 0 0 k - 4.1 := lt_of_lt_of_eq a (by unfold pdk; ring)
  have b' : 0 < 11.3 - pdk e 0 0 k := lt_of_lt_of_eq b (by unfold pdk; ring)
  constructor <;> linarith

lemma pd_lo13 (t S y k : ℝ) (ht : -0.0078125 ≤ t ∧ t ≤ 0.0078125) (hS : -1 ≤ S ∧ S ≤ 1)
    (hk : 0.15915 ≤ k ∧ k ≤ 0.159156) (hy : -0.0358 ≤ y ∧ y ≤ 0.0358) :
    0 < 2.5 + (500 + ((8.8747412309354160627250373363494873046875 + t * ((-5.4167480738436722454071044921875) + t * (134.7608062872929034423828125 + t * (3659.85335026186278125 + t * 16026.897939722587)))) + ((-2.481490056942998941650390625) + t * (94.1083885466920478125 + t * 609.5575850476959)) * S ^ 1 + ((-2.405867393717707128759765625) + t * (61.4950375289025153125 + t * 376.9200932531847)) * S ^ 2 + (10.98222634658855195166015625 + t * ((-181.586039326849843125) + t * (-755.9566456906406))) * S ^ 3 + (10.573919096527658665283203125 + t * ((-173.2295967941158840625) + t * (-764.5242164872267))) * S ^ 4 + 105.37711654943146 * y) - ((3143.65120196564871263645328799611888825893402099609375 + t * ((-174.073847036435484298546053469181060791015625) + t * (118.742588211071538037359714508056640625 + t * ((-1672.906751281680386199951171875) + t * ((-192530.8592526610015380859375) + t * ((-2023274.82166768815625) + t * (-5789128.656876938))))))) + ((-16.7365382285741791405029296875) + t * ((-44.90329760324322140625) + t * (-380.19778216022763))) * S ^ 1 + ((-12.25559614532457146728515625) + t * ((-22.262718513155296875) + t * 725.6024119989094)) * S ^ 2 + ((-26.5295617707801766845703125) + t * (172.89115075015750625 + t * 1941.8836639529036)) * S ^ 3 + ((-22.82816839917388454345703125) + t * (230.988501206299970625 + t * 1320.102640190539)) * S ^ 4 - 148.17317525117338 * y) * k) := by
  interval_bnb [ht, hS, hy, hk] []

lemma pd_hi13 (t S y k : ℝ) (ht : -0.0078125 ≤ t ∧ t ≤ 0.0078125) (hS : -1 ≤ S ∧ S ≤ 1)
    (hk : 0.15915 ≤ k ∧ k ≤ 0.159156) (hy : -0.0358 ≤ y ∧ y ≤ 0.0358) :
    0 < 55 - (500 + ((8.8747412309354160627250373363494873046875 + t * ((-5.4167480738436722454071044921875) + t * (134.7608062872929034423828125 + t * (3659.85335026186278125 + t * 16026.897939722587)))) + ((-2.481490056942998941650390625) + t * (94.1083885466920478125 + t * 609.5575850476959)) * S ^ 1 + ((-2.405867393717707128759765625) + t * (61.4950375289025153125 + t * 376.9200932531847)) * S ^ 2 + (10.98222634658855195166015625 + t * ((-181.586039326849843125) + t * (-755.9566456906406))) * S ^ 3 + (10.573919096527658665283203125 + t * ((-173.2295967941158840625) + t * (-764.5242164872267))) * S ^ 4 + 105.37711654943146 * y) - ((3143.65120196564871263645328799611888825893402099609375 + t * ((-174.073847036435484298546053469181060791015625) + t * (118.742588211071538037359714508056640625 + t * ((-1672.906751281680386199951171875) + t * ((-192530.8592526610015380859375) + t * ((-2023274.82166768815625) + t * (-5789128.656876938))))))) + ((-16.7365382285741791405029296875) + t * ((-44.90329760324322140625) + t * (-380.19778216022763))) * S ^ 1 + ((-12.25559614532457146728515625) + t * ((-22.262718513155296875) + t * 725.6024119989094)) * S ^ 2 + ((-26.5295617707801766845703125) + t * (172.89115075015750625 + t * 1941.8836639529036)) * S ^ 3 + ((-22.82816839917388454345703125) + t * (230.988501206299970625 + t * 1320.102640190539)) * S ^ 4 - 148.17317525117338 * y) * k) := by
  interval_bnb [ht, hS, hy, hk] []

lemma pd_13 (e S y k : ℝ) (he : 0.203125 ≤ e ∧ e ≤ 0.21875) (hS : -1 ≤ S ∧ S ≤ 1)
    (hk : 0.15915 ≤ k ∧ k ≤ 0.159156) (hy : -0.0358 ≤ y ∧ y ≤ 0.0358) : -2.5 < pdk e S y k ∧ pdk e S y k < 55 := by
  have ht : -0.0078125 ≤ e - 0.2109375 ∧ e - 0.2109375 ≤ 0.0078125 := by constructor <;> linarith [he.1, he.2]
  have a := pd_lo13 (e - 0.2109375) S y k ht hS hk hy
  have b := pd_hi13 (e - 0.2109375) S y k ht hS hk hy
  have a' : 0 < 2.5 + pdk e S y k := lt_of_lt_of_eq a (by unfold pdk; ring)
  have b' : 0 < 55 - pdk e S y k := lt_of_lt_of_eq b (by unfold pdk; ring)
  constructor <;> linarith

lemma pn_lo13 (t k : ℝ) (ht : -0.0078125 ≤ t ∧ t ≤ 0.0078125) (hk : 0.15915 ≤ k ∧ k ≤ 0.159156) :
    0 < 500 + (8.8747412309354160627250373363494873046875 + t * ((-5.4167480738436722454071044921875) + t * (134.7608062872929034423828125 + t * (3659.85335026186278125 + t * 16026.897939722587)))) - (3143.65120196564871263645328799611888825893402099609375 + t * ((-174.073847036435484298546053469181060791015625) + t * (118.742588211071538037359714508056640625 + t * ((-1672.906751281680386199951171875) + t * ((-192530.8592526610015380859375) + t * ((-2023274.82166768815625) + t * (-5789128.656876938))))))) * k - 4.1 := by
  interval_bnb [ht, hk] []

lemma pn_hi13 (t k : ℝ) (ht : -0.0078125 ≤ t ∧ t ≤ 0.0078125) (hk : 0.15915 ≤ k ∧ k ≤ 0.159156) :
    0 < 11.3 - (500 + (8.8747412309354160627250373363494873046875 + t * ((-5.4167480738436722454071044921875) + t * (134.7608062872929034423828125 + t * (3659.85335026186278125 + t * 16026.897939722587)))) - (3143.65120196564871263645328799611888825893402099609375 + t * ((-174.073847036435484298546053469181060791015625) + t * (118.742588211071538037359714508056640625 + t * ((-1672.906751281680386199951171875) + t * ((-192530.8592526610015380859375) + t * ((-2023274.82166768815625) + t * (-5789128.656876938))))))) * k) := by
  interval_bnb [ht, hk] []

lemma pn_13 (e k : ℝ) (he : 0.203125 ≤ e ∧ e ≤ 0.21875) (hk : 0.15915 ≤ k ∧ k ≤ 0.159156) :
    4.1 < pdk e 0 0 k ∧ pdk e 0 0 k < 11.3 := by
  have ht : -0.0078125 ≤ e - 0.2109375 ∧ e - 0.2109375 ≤ 0.0078125 := by constructor <;> linarith [he.1, he.2]
  have a := pn_lo13 (e - 0.2109375) k ht hk
  have b := pn_hi13 (e - 0.2109375) k ht hk
  have a' : 0 < pdk e 0 0 k - 4.1 := lt_of_lt_of_eq a (by unfold pdk; ring)
  have b' : 0 < 11.3 - pdk e 0 0 k := lt_of_lt_of_eq b (by unfold pdk; ring)
  constructor <;> linarith

lemma pd_lo14 (t S y k : ℝ) (ht : -0.0078125 ≤ t ∧ t ≤ 0.0078125) (hS : -1 ≤ S ∧ S ≤ 1)
    (hk : 0.15915 ≤ k ∧ k ≤ 0.159156) (hy : -0.0358 ≤ y ∧ y ≤ 0.0358) :
    0 < 2.5 + (500 + ((8.8379216398804733308915793895721435546875 + t * (1.7196348306464990612030029296875 + t * (329.7933333597082296142578125 + t * (4661.53447149452446875 + t * 16026.897939722587)))) + ((-0.862228716113900562744140625) + t * (113.1570630794325446875 + t * 609.5575850476959)) * S ^ 1 + ((-1.352985925186714531103515625) + t * (73.2737904430645371875 + t * 376.9200932531847)) * S ^ 2 + (7.96038475415470660009765625 + t * ((-205.209684504682361875) + t * (-755.9566456906406))) * S ^ 3 + (7.680555226578771145751953125 + t * ((-197.1209785593417184375) + t * (-764.5242164872267))) * S ^ 4 + 105.37711654943146 * y) - ((3140.94046206469503020809063673368655145168304443359375 + t * ((-175.161534586047105449730716645717620849609375) + t * ((-324.060235269166526089608669281005859375) + t * ((-19087.396714814917954864501953125) + t * ((-371799.6270228793316162109375) + t * ((-2566005.63324990109375) + t * (-5789128.656876938))))))) + ((-17.5309739777850662987060546875) + t * ((-56.78447829575033484375) + t * (-380.19778216022763))) * S ^ 1 + ((-12.42630209572570174072265625) + t * (0.412356861810621875 + t * 725.6024119989094)) * S ^ 2 + ((-23.3540448489142137939453125) + t * (233.57501524868574375 + t * 1941.8836639529036)) * S ^ 3 + ((-18.89668238418517919189453125) + t * (272.241708712254314375 + t * 1320.102640190539)) * S ^ 4 - 148.17317525117338 * y) * k) := by
  interval_bnb [ht, hS, hy, hk] []

lemma pd_hi14 (t S y k : ℝ) (ht : -0.0078125 ≤ t ∧ t ≤ 0.0078125) (hS : -1 ≤ S ∧ S ≤ 1)
    (hk : 0.15915 ≤ k ∧ k ≤ 0.159156) (hy : -0.0358 ≤ y ∧ y ≤ 0.0358) :
    0 < 55 - (500 + ((8.8379216398804733308915793895721435546875 + t * (1.7196348306464990612030029296875 + t * (329.7933333597082296142578125 + t * (4661.53447149452446875 + t * 16026.897939722587)))) + ((-0.862228716113900562744140625) + t * (113.1570630794325446875 + t * 609.5575850476959)) * S ^ 1 + ((-1.352985925186714531103515625) + t * (73.2737904430645371875 + t * 376.9200932531847)) * S ^ 2 + (7.96038475415470660009765625 + t * ((-205.209684504682361875) + t * (-755.9566456906406))) * S ^ 3 + (7.680555226578771145751953125 + t * ((-197.1209785593417184375) + t * (-764.5242164872267))) * S ^ 4 + 105.37711654943146 * y) - ((3140.94046206469503020809063673368655145168304443359375 + t * ((-175.161534586047105449730716645717620849609375) + t * ((-324.060235269166526089608669281005859375) + t * ((-19087.396714814917954864501953125) + t * ((-371799.6270228793316162109375) + t * ((-2566005.63324990109375) + t * (-5789128.656876938))))))) + ((-17.5309739777850662987060546875) + t * ((-56.78447829575033484375) + t * (-380.19778216022763))) * S ^ 1 + ((-12.42630209572570174072265625) + t * (0.412356861810621875 + t * 725.6024119989094)) * S ^ 2 + ((-23.3540448489142137939453125) + t * (233.57501524868574375 + t * 1941.8836639529036)) * S ^ 3 + ((-18.89668238418517919189453125) + t * (272.241708712254314375 + t * 1320.102640190539)) * S ^ 4 - 148.17317525117338 * y) * k) := by
  interval_bnb [ht, hS, hy, hk] []

lemma pd_14 (e S y k : ℝ) (he : 0.21875 ≤ e ∧ e ≤ 0.234375) (hS : -1 ≤ S ∧ S ≤ 1)
    (hk : 0.15915 ≤ k ∧ k ≤ 0.159156) (hy : -0.0358 ≤ y ∧ y ≤ 0.0358) : -2.5 < pdk e S y k ∧ pdk e S y k < 55 := by
  have ht : -0.0078125 ≤ e - 0.2265625 ∧ e - 0.2265625 ≤ 0.0078125 := by constructor <;> linarith [he.1, he.2]
  have a := pd_lo14 (e - 0.2265625) S y k ht hS hk hy
  have b := pd_hi14 (e - 0.2265625) S y k ht hS hk hy
  have a' : 0 < 2.5 + pdk e S y k := lt_of_lt_of_eq a (by unfold pdk; ring)
  have b' : 0 < 55 - pdk e S y k := lt_of_lt_of_eq b (by unfold pdk; ring)
  constructor <;> linarith

lemma pn_lo14 (t k : ℝ) (ht : -0.0078125 ≤ t ∧ t ≤ 0.0078125) (hk : 0.15915 ≤ k ∧ k ≤ 0.159156) :
    0 < 500 + (8.8379216398804733308915793895721435546875 + t * (1.7196348306464990612030029296875 + t * (329.7933333597082296142578125 + t * (4661.53447149452446875 + t * 16026.897939722587)))) - (3140.94046206469503020809063673368655145168304443359375 + t * ((-175.161534586047105449730716645717620849609375) + t * ((-324.060235269166526089608669281005859375) + t * ((-19087.396714814917954864501953125) + t * ((-371799.6270228793316162109375) + t * ((-2566005.63324990109375) + t * (-5789128.656876938))))))) * k - 4.1 := by
  interval_bnb [ht, hk] []

lemma pn_hi14 (t k : ℝ) (ht : -0.0078125 ≤ t ∧ t ≤ 0.0078125) (hk : 0.15915 ≤ k ∧ k ≤ 0.159156) :
    0 < 11.3 - (500 + (8.8379216398804733308915793895721435546875 + t * (1.7196348306464990612030029296875 + t * (329.7933333597082296142578125 + t * (4661.53447149452446875 + t * 16026.897939722587)))) - (3140.94046206469503020809063673368655145168304443359375 + t * ((-175.161534586047105449730716645717620849609375) + t * ((-324.060235269166526089608669281005859375) + t * ((-19087.396714814917954864501953125) + t * ((-371799.6270228793316162109375) + t * ((-2566005.63324990109375) + t * (-5789128.656876938))))))) * k) := by
  interval_bnb [ht, hk] []

lemma pn_14 (e k : ℝ) (he : 0.21875 ≤ e ∧ e ≤ 0.234375) (hk : 0.15915 ≤ k ∧ k ≤ 0.159156) :
    4.1 < pdk e 0 0 k ∧ pdk e 0 0 k < 11.3 := by
  have ht : -0.0078125 ≤ e - 0.2265625 ∧ e - 0.2265625 ≤ 0.0078125 := by constructor <;> linarith [he.1, he.2]
  have a := pn_lo14 (e - 0.2265625) k ht hk
  have b := pn_hi14 (e - 0.2265625) k ht hk
  have a' : 0 < pdk e 0 0 k - 4.1 := lt_of_lt_of_eq a (by unfold pdk; ring)
  have b' : 0 < 11.3 - pdk e 0 0 k := lt_of_lt_of_eq b (by unfold pdk; ring)
  constructor <;> linarith

lemma pd_lo15 (t S y k : ℝ) (ht : -0.0078125 ≤ t ∧ t ≤ 0.0078125) (hS : -1 ≤ S ∧ S ≤ 1)
    (hk : 0.15915 ≤ k ∧ k ≤ 0.159156) (hy : -0.0358 ≤ y ∧ y ≤ 0.0358) :
    0 < 2.5 + (500 + ((8.9640445049971728423838317394256591796875 + t * (15.6844373711149776950836181640625 + t * (571.7796629899045723876953125 + t * (5663.21559272718615625 + t * 16026.897939722587)))) + (1.054668164289268079833984375 + t * (132.2057376121730415625 + t * 609.5575850476959)) * S ^ 1 + ((-0.116061442371940341650390625) + t * (85.0525433572265590625 + t * 376.9200932531847)) * S ^ 2 + (4.56942370581722814306640625 + t * ((-228.833329682514880625) + t * (-755.9566456906406))) * S ^ 3 + (4.413888516548229964111328125 + t * ((-221.0123603245675528125) + t * (-764.5242164872267))) * S ^ 4 + 105.37711654943146 * y) - ((3138.02699917177726020182821303023956716060638427734375 + t * ((-205.738734459741007868334837257862091064453125) + t * ((-1866.471547257561905923783779144287109375) + t * ((-49031.211059451188207855224609375) + t * ((-593469.2394479580474365234375) + t * ((-3108736.44483211403125) + t * (-5789128.656876938))))))) + ((-18.5110531753163771043701171875) + t * ((-68.66565898825744828125) + t * (-380.19778216022763))) * S ^ 1 + ((-12.24270999339298953369140625) + t * (23.087432236776540625 + t * 725.6024119989094)) * S ^ 2 + ((-19.2303425442587471923828125) + t * (294.25887974721398125 + t * 1941.8836639529036)) * S ^ 3 + ((-14.32061500191593721923828125) + t * (313.494916218208658125 + t * 1320.102640190539)) * S ^ 4 - 148.17317525117338 * y) * k) := by
  interval_bnb [ht, hS, hy, hk] []

lemma pd_hi15 (t S y k : ℝ) (ht : -0.0078125 ≤ t ∧ t ≤ 0.0078125) (hS : -1 ≤ S ∧ S ≤ 1)
    (hk : 0.15915 ≤ k ∧ k ≤ 0.159156) (hy : -0.0358 ≤ y ∧ y ≤ 0.0358) :
    0 < 55 - (500 + ((8.9640445049971728423838317394256591796875 + t * (15.6844373711149776950836181640625 + t * (571.7796629899045723876953125 + t * (5663.21559272718615625 + t * 16026.897939722587)))) + (1.054668164289268079833984375 + t * (132.2057376121730415625 + t * 609.5575850476959)) * S ^ 1 + ((-0.116061442371940341650390625) + t * (85.0525433572265590625 + t * 376.9200932531847)) * S ^ 2 + (4.56942370581722814306640625 + t * ((-228.833329682514880625) + t * (-755.9566456906406))) * S ^ 3 + (4.413888516548229964111328125 + t * ((-221.0123603245675528125) + t * (-764.5242164872267))) * S ^ 4 + 105.37711654943146 * y) - ((3138.02699917177726020182821303023956716060638427734375 + t * ((-205.738734459741007868334837257862091064453125) + t * ((-1866.471547257561905923783779144287109375) + t * ((-49031.211059451188207855224609375) + t * ((-593469.2394479580474365234375) + t * ((-3108736.44483211403125) + t * (-5789128.656876938))))))) + ((-18.5110531753163771043701171875) + t * ((-68.66565898825744828125) + t * (-380.19778216022763))) * S ^ 1 + ((-12.24270999339298953369140625) + t * (23.087432236776540625 + t * 725.6024119989094)) * S ^ 2 + ((-19.2303425442587471923828125) + t * (294.25887974721398125 + t * 1941.8836639529036)) * S ^ 3 + ((-14.32061500191593721923828125) + t * (313.494916218208658125 + t * 1320.102640190539)) * S ^ 4 - 148.17317525117338 * y) * k) := by
  interval_bnb [ht, hS, hy, hk] []

lemma pd_15 (e S y k : ℝ) (he : 0.234375 ≤ e ∧ e ≤ 0.25) (hS : -1 ≤ S ∧ S ≤ 1)
    (hk : 0.15915 ≤ k ∧ k ≤ 0.159156) (hy : -0.0358 ≤ y ∧ y ≤ 0.0358) : -2.5 < pdk e S y k ∧ pdk e S y k < 55 := by
  have ht : -0.0078125 ≤ e - 0.2421875 ∧ e - 0.2421875 ≤ 0.0078125 := by constructor <;> linarith [he.1, he.2]
  have a := pd_lo15 (e - 0.2421875) S y k ht hS hk hy
  have b := pd_hi15 (e - 0.2421875) S y k ht hS hk hy
  have a' : 0 < 2.5 + pdk e S y k := lt_of_lt_of_eq a (by unfold pdk; ring)
  have b' : 0 < 55 - pdk e S y k := lt_of_lt_of_eq b (by unfold pdk; ring)
  constructor <;> linarith

lemma pn_lo15 (t k : ℝ) (ht : -0.0078125 ≤ t ∧ t ≤ 0.0078125) (hk : 0.15915 ≤ k ∧ k ≤ 0.159156) :
    0 < 500 + (8.9640445049971728423838317394256591796875 + t * (15.6844373711149776950836181640625 + t * (571.7796629899045723876953125 + t * (5663.21559272718615625 + t * 16026.897939722587)))) - (3138.02699917177726020182821303023956716060638427734375 + t * ((-205.738734459741007868334837257862091064453125) + t * ((-1866.471547257561905923783779144287109375) + t * ((-49031.211059451188207855224609375) + t * ((-593469.2394479580474365234375) + t * ((-3108736.44483211403125) + t * (-5789128.656876938))))))) * k - 4.1 := by
  interval_bnb [ht, hk] []

lemma pn_hi15 (t k : ℝ) (ht : -0.0078125 ≤ t ∧ t ≤ 0.0078125) (hk : 0.15915 ≤ k ∧ k ≤ 0.159156) :
    0 < 11.3 - (500 + (8.9640445049971728423838317394256591796875 + t * (15.6844373711149776950836181640625 + t * (571.7796629899045723876953125 + t * (5663.21559272718615625 + t * 16026.897939722587)))) - (3138.02699917177726020182821303023956716060638427734375 + t * ((-205.738734459741007868334837257862091064453125) + t * ((-1866.471547257561905923783779144287109375) + t * ((-49031.211059451188207855224609375) + t * ((-593469.2394479580474365234375) + t * ((-3108736.44483211403125) + t * (-5789128.656876938))))))) * k) := by
  interval_bnb [ht, hk] []

lemma pn_15 (e k : ℝ) (he : 0.234375 ≤ e ∧ e ≤ 0.25) (hk : 0.15915 ≤ k ∧ k ≤ 0.159156) :
    4.1 < pdk e 0 0 k ∧ pdk e 0 0 k < 11.3 := by
  have ht : -0.0078125 ≤ e - 0.2421875 ∧ e - 0.2421875 ≤ 0.0078125 := by constructor <;> linarith [he.1, he.2]
  have a := pn_lo15 (e - 0.2421875) k ht hk
  have b := pn_hi15 (e - 0.2421875) k ht hk
  have a' : 0 < pdk e 0 0 k - 4.1 := lt_of_lt_of_eq a (by unfold pdk; ring)
  have b' : 0 < 11.3 - pdk e 0 0 k := lt_of_lt_of_eq b (by unfold pdk; ring)
  constructor <;> linarith

lemma pd_all (e S y w k : ℝ) (he : 0 ≤ e ∧ e ≤ 0.25) (hS : -1 ≤ S ∧ S ≤ 1) (hk : 0.15915 ≤ k ∧ k ≤ 0.159156)
    (hw : -2 ≤ w ∧ w ≤ 2) (hy : y = e ^ 2 * w) (hy' : -0.0358 ≤ y ∧ y ≤ 0.0358) : -2.5 < pdk e S y k ∧ pdk e S y k < 55 := by
  rcases le_total e 0.015625 with g | h1
  · exact pd_0 e S y w k ⟨(by norm_num; exact he.1), g⟩ hS hk hw hy
  rcases le_total e 0.03125 with g | h2
  · exact pd_1 e S y w k ⟨h1, g⟩ hS hk hw hy
  rcases le_total e 0.046875 with g | h3
  · exact pd_2 e S y w k ⟨h2, g⟩ hS hk hw hy
  rcases le_total e 0.0625 with g | h4
  · exact pd_3 e S y w k ⟨h3, g⟩ hS hk hw hy
  rcases le_total e 0.078125 with g | h5
  · exact pd_4 e S y w k ⟨h4, g⟩ hS hk hw hy
  rcases le_total e 0.09375 with g | h6
  · exact pd_5 e S y w k ⟨h5, g⟩ hS hk hw hy
  rcases le_total e 0.109375 with g | h7
  · exact pd_6 e S y w k ⟨h6, g⟩ hS hk hw hy
  rcases le_total e 0.125 with g | h8
  · exact pd_7 e S y w k ⟨h7, g⟩ hS hk hw hy
  rcases le_total e 0.140625 with g | h9
  · exact pd_8 e S y k ⟨h8, g⟩ hS hk hy'
  rcases le_total e 0.15625 with g | h10
  · exact pd_9 e S y k ⟨h9, g⟩ hS hk hy'
  rcases le_total e 0.171875 with g | h11
  · exact pd_10 e S y k ⟨h10, g⟩ hS hk hy'
  rcases le_total e 0.1875 with g | h12
  · exact pd_11 e S y k ⟨h11, g⟩ hS hk hy'
  rcases le_total e 0.203125 with g | h13
  · exact pd_12 e S y k ⟨h12, g⟩ hS hk hy'
  rcases le_total e 0.21875 with g | h14
  · exact pd_13 e S y k ⟨h13, g⟩ hS hk hy'
  rcases le_total e 0.234375 with g | h15
  · exact pd_14 e S y k ⟨h14, g⟩ hS hk hy'
  exact pd_15 e S y k ⟨h15, he.2⟩ hS hk hy'

lemma pn_all (e k : ℝ) (he : 0 ≤ e ∧ e ≤ 0.25) (hk : 0.15915 ≤ k ∧ k ≤ 0.159156) : 4.1 < pdk e 0 0 k ∧ pdk e 0 0 k < 11.3 := by
  rcases le_total e 0.015625 with g | h1
  · exact pn_0 e k ⟨(by norm_num; exact he.1), g⟩ hk
  rcases le_total e 0.03125 with g | h2
  · exact pn_1 e k ⟨h1, g⟩ hk
  rcases le_total e 0.046875 with g | h3
  · exact pn_2 e k ⟨h2, g⟩ hk
  rcases le_total e 0.0625 with g | h4
  · exact pn_3 e k ⟨h3, g⟩ hk
  rcases le_total e 0.078125 with g | h5
  · exact pn_4 e k ⟨h4, g⟩ hk
  rcases le_total e 0.09375 with g | h6
  · exact pn_5 e k ⟨h5, g⟩ hk
  rcases le_total e 0.109375 with g | h7
  · exact pn_6 e k ⟨h6, g⟩ hk
  rcases le_total e 0.125 with g | h8
  · exact pn_7 e k ⟨h7, g⟩ hk
  rcases le_total e 0.140625 with g | h9
  · exact pn_8 e k ⟨h8, g⟩ hk
  rcases le_total e 0.15625 with g | h10
  · exact pn_9 e k ⟨h9, g⟩ hk
  rcases le_total e 0.171875 with g | h11
  · exact pn_10 e k ⟨h10, g⟩ hk
  rcases le_total e 0.1875 with g | h12
  · exact pn_11 e k ⟨h11, g⟩ hk
  rcases le_total e 0.203125 with g | h13
  · exact pn_12 e k ⟨h12, g⟩ hk
  rcases le_total e 0.21875 with g | h14
  · exact pn_13 e k ⟨h13, g⟩ hk
  rcases le_total e 0.234375 with g | h15
  · exact pn_14 e k ⟨h14, g⟩ hk
  exact pn_15 e k ⟨h15, he.2⟩ hk

end XAS
end Ripple

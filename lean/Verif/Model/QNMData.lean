/-
  Generated by tools/gen_qnm.py from src/ripplegw/waveforms/IMRPhenomD_QNMdata.py (all 1003 rows, exact decimals).
  Spins in units of 1e-3, frequencies in units of 1e-8.
-/
namespace Ripple.QNMData

def a0 : List Int := [-1000, -999, -998, -996, -994, -992, -990, -988, -986, -984, -982, -980, -978, -976, -974, -972, -970, -968, -966, -964, -962, -960, -958, -956, -954, -952, -950, -948, -946, -944, -942, -940, -938, -936, -934, -932, -930, -928, -926, -924, -922, -920, -918, -916, -914, -912, -910, -908, -906, -904, -902, -900, -898, -896, -894, -892, -890, -888, -886, -884, -882, -880, -878, -876, -874, -872, -870, -868, -866, -864, -862, -860, -858, -856, -854, -852, -850, -848, -846, -844, -842, -840, -838, -836, -834, -832, -830, -828, -826, -824, -822, -820, -818, -816, -814, -812, -810, -808, -806, -804, -802, -800, -798, -796, -794, -792, -790, -788, -786, -784, -782, -780, -778, -776, -774, -772, -770, -768, -766, -764, -762, -760, -758, -756, -754, -752, -750, -748, -746, -744, -742, -740, -738, -736, -734, -732, -730, -728, -726, -724, -722, -720, -718, -716, -714, -712, -710, -708, -706, -704, -702, -700, -698, -696, -694, -692, -690, -688, -686, -684, -682, -680, -678, -676, -674, -672, -670, -668, -666, -664, -662, -660, -658, -656, -654, -652, -650, -648, -646, -644, -642, -640, -638, -636, -634, -632, -630, -628, -626, -624, -622, -620, -618, -616, -614, -612, -610, -608, -606, -604]
def a1 : List Int := [-602, -600, -598, -596, -594, -592, -590, -588, -586, -584, -582, -580, -578, -576, -574, -572, -570, -568, -566, -564, -562, -560, -558, -556, -554, -552, -550, -548, -546, -544, -542, -540, -538, -536, -534, -532, -530, -528, -526, -524, -522, -520, -518, -516, -514, -512, -510, -508, -506, -504, -502, -500, -498, -496, -494, -492, -490, -488, -486, -484, -482, -480, -478, -476, -474, -472, -470, -468, -466, -464, -462, -460, -458, -456, -454, -452, -450, -448, -446, -444, -442, -440, -438, -436, -434, -432, -430, -428, -426, -424, -422, -420, -418, -416, -414, -412, -410, -408, -406, -404, -402, -400, -398, -396, -394, -392, -390, -388, -386, -384, -382, -380, -378, -376, -374, -372, -370, -368, -366, -364, -362, -360, -358, -356, -354, -352, -350, -348, -346, -344, -342, -340, -338, -336, -334, -332, -330, -328, -326, -324, -322, -320, -318, -316, -314, -312, -310, -308, -306, -304, -302, -300, -298, -296, -294, -292, -290, -288, -286, -284, -282, -280, -278, -276, -274, -272, -270, -268, -266, -264, -262, -260, -258, -256, -254, -252, -250, -248, -246, -244, -242, -240, -238, -236, -234, -232, -230, -228, -226, -224, -222, -220, -218, -216, -214, -212, -210, -208, -206, -204]
def a2 : List Int := [-202, -200, -198, -196, -194, -192, -190, -188, -186, -184, -182, -180, -178, -176, -174, -172, -170, -168, -166, -164, -162, -160, -158, -156, -154, -152, -150, -148, -146, -144, -142, -140, -138, -136, -134, -132, -130, -128, -126, -124, -122, -120, -118, -116, -114, -112, -110, -108, -106, -104, -102, -100, -98, -96, -94, -92, -90, -88, -86, -84, -82, -80, -78, -76, -74, -72, -70, -68, -66, -64, -62, -60, -58, -56, -54, -52, -50, -48, -46, -44, -42, -40, -38, -36, -34, -32, -30, -28, -26, -24, -22, -20, -18, -16, -14, -12, -10, -8, -6, -4, -2, 0, 2, 4, 6, 8, 10, 12, 14, 16, 18, 20, 22, 24, 26, 28, 30, 32, 34, 36, 38, 40, 42, 44, 46, 48, 50, 52, 54, 56, 58, 60, 62, 64, 66, 68, 70, 72, 74, 76, 78, 80, 82, 84, 86, 88, 90, 92, 94, 96, 98, 100, 102, 104, 106, 108, 110, 112, 114, 116, 118, 120, 122, 124, 126, 128, 130, 132, 134, 136, 138, 140, 142, 144, 146, 148, 150, 152, 154, 156, 158, 160, 162, 164, 166, 168, 170, 172, 174, 176, 178, 180, 182, 184, 186, 188, 190, 192, 194, 196]
def a3 : List Int := [198, 200, 202, 204, 206, 208, 210, 212, 214, 216, 218, 220, 222, 224, 226, 228, 230, 232, 234, 236, 238, 240, 242, 244, 246, 248, 250, 252, 254, 256, 258, 260, 262, 264, 266, 268, 270, 272, 274, 276, 278, 280, 282, 284, 286, 288, 290, 292, 294, 296, 298, 300, 302, 304, 306, 308, 310, 312, 314, 316, 318, 320, 322, 324, 326, 328, 330, 332, 334, 336, 338, 340, 342, 344, 346, 348, 350, 352, 354, 356, 358, 360, 362, 364, 366, 368, 370, 372, 374, 376, 378, 380, 382, 384, 386, 388, 390, 392, 394, 396, 398, 400, 402, 404, 406, 408, 410, 412, 414, 416, 418, 420, 422, 424, 426, 428, 430, 432, 434, 436, 438, 440, 442, 444, 446, 448, 450, 452, 454, 456, 458, 460, 462, 464, 466, 468, 470, 472, 474, 476, 478, 480, 482, 484, 486, 488, 490, 492, 494, 496, 498, 500, 502, 504, 506, 508, 510, 512, 514, 516, 518, 520, 522, 524, 526, 528, 530, 532, 534, 536, 538, 540, 542, 544, 546, 548, 550, 552, 554, 556, 558, 560, 562, 564, 566, 568, 570, 572, 574, 576, 578, 580, 582, 584, 586, 588, 590, 592, 594, 596]
def a4 : List Int := [598, 600, 602, 604, 606, 608, 610, 612, 614, 616, 618, 620, 622, 624, 626, 628, 630, 632, 634, 636, 638, 640, 642, 644, 646, 648, 650, 652, 654, 656, 658, 660, 662, 664, 666, 668, 670, 672, 674, 676, 678, 680, 682, 684, 686, 688, 690, 692, 694, 696, 698, 700, 702, 704, 706, 708, 710, 712, 714, 716, 718, 720, 722, 724, 726, 728, 730, 732, 734, 736, 738, 740, 742, 744, 746, 748, 750, 752, 754, 756, 758, 760, 762, 764, 766, 768, 770, 772, 774, 776, 778, 780, 782, 784, 786, 788, 790, 792, 794, 796, 798, 800, 802, 804, 806, 808, 810, 812, 814, 816, 818, 820, 822, 824, 826, 828, 830, 832, 834, 836, 838, 840, 842, 844, 846, 848, 850, 852, 854, 856, 858, 860, 862, 864, 866, 868, 870, 872, 874, 876, 878, 880, 882, 884, 886, 888, 890, 892, 894, 896, 898, 900, 902, 904, 906, 908, 910, 912, 914, 916, 918, 920, 922, 924, 926, 928, 930, 932, 934, 936, 938, 940, 942, 944, 946, 948, 950, 952, 954, 956, 958, 960, 962, 964, 966, 968, 970, 972, 974, 976, 978, 980, 982, 984, 986, 988, 990, 992, 994, 996]
def a5 : List Int := [998, 999, 1000]
/-- `_QNMData_a` in units of 1e-3. src/ripplegw/waveforms/IMRPhenomD_QNMdata.py:6-1012. -/
def a : List Int := a0 ++ (a1 ++ (a2 ++ (a3 ++ (a4 ++ (a5)))))

def fRD0 : List Int := [4640140, 4641100, 4641970, 4643730, 4645260, 4647300, 4649090, 4650840, 4652590, 4654350, 4656110, 4657890, 4659660, 4661440, 4663220, 4665010, 4666790, 4668580, 4670380, 4672170, 4673970, 4675770, 4677570, 4679370, 4681170, 4682980, 4684790, 4686600, 4688420, 4690240, 4692050, 4693880, 4695700, 4697520, 4699350, 4701180, 4703020, 4704850, 4706690, 4708530, 4710370, 4712210, 4714060, 4715910, 4717760, 4719620, 4721470, 4723330, 4725190, 4727050, 4728920, 4730790, 4732660, 4734530, 4736410, 4738290, 4740170, 4742050, 4743930, 4745820, 4747710, 4749600, 4751500, 4753400, 4755300, 4757200, 4759100, 4761010, 4762920, 4764830, 4766750, 4768660, 4770580, 4772510, 4774430, 4776360, 4778290, 4780220, 4782160, 4784090, 4786030, 4787980, 4789920, 4791870, 4793820, 4795770, 4797730, 4799690, 4801650, 4803610, 4805580, 4807550, 4809520, 4811490, 4813470, 4815450, 4817430, 4819420, 4821400, 4823390, 4825390, 4827380, 4829380, 4831380, 4833390, 4835390, 4837400, 4839410, 4841430, 4843450, 4845470, 4847490, 4849510, 4851540, 4853570, 4855610, 4857640, 4859680, 4861730, 4863770, 4865820, 4867870, 4869920, 4871980, 4874040, 4876100, 4878170, 4880240, 4882310, 4884380, 4886460, 4888540, 4890620, 4892700, 4894790, 4896880, 4898980, 4901080, 4903180, 4905280, 4907390, 4909490, 4911610, 4913720, 4915840, 4917960, 4920080, 4922210, 4924340, 4926470, 4928610, 4930750, 4932890, 4935040, 4937190, 4939340, 4941490, 4943650, 4945810, 4947970, 4950140, 4952310, 4954480, 4956660, 4958840, 4961020, 4963210, 4965400, 4967590, 4969790, 4971980, 4974190, 4976390, 4978600, 4980810, 4983020, 4985240, 4987460, 4989690, 4991920, 4994150, 4996380, 4998620, 5000860, 5003100, 5005350, 5007600, 5009860, 5012120, 5014380, 5016640, 5018910, 5021180, 5023450, 5025730, 5028010, 5030300, 5032590, 5034880, 5037170]
def fRD1 : List Int := [5039470, 5041770, 5044080, 5046390, 5048700, 5051020, 5053340, 5055660, 5057990, 5060320, 5062650, 5064990, 5067330, 5069670, 5072020, 5074370, 5076730, 5079090, 5081450, 5083810, 5086180, 5088560, 5090930, 5093320, 5095700, 5098090, 5100480, 5102880, 5105270, 5107680, 5110080, 5112490, 5114910, 5117330, 5119750, 5122170, 5124600, 5127040, 5129470, 5131920, 5134360, 5136810, 5139260, 5141720, 5144180, 5146640, 5149110, 5151580, 5154060, 5156540, 5159020, 5161510, 5164000, 5166500, 5169000, 5171500, 5174010, 5176520, 5179040, 5181560, 5184080, 5186610, 5189140, 5191680, 5194220, 5196770, 5199310, 5201870, 5204430, 5206990, 5209550, 5212120, 5214700, 5217270, 5219860, 5222440, 5225030, 5227630, 5230230, 5232830, 5235440, 5238050, 5240670, 5243290, 5245920, 5248550, 5251180, 5253820, 5256460, 5259110, 5261760, 5264420, 5267080, 5269750, 5272420, 5275090, 5277770, 5280450, 5283140, 5285830, 5288530, 5291230, 5293940, 5296650, 5299360, 5302080, 5304810, 5307540, 5310270, 5313010, 5315760, 5318500, 5321260, 5324020, 5326780, 5329540, 5332320, 5335090, 5337880, 5340660, 5343450, 5346250, 5349050, 5351860, 5354670, 5357490, 5360310, 5363130, 5365960, 5368800, 5371640, 5374490, 5377340, 5380190, 5383050, 5385920, 5388790, 5391670, 5394550, 5397440, 5400330, 5403220, 5406130, 5409030, 5411950, 5414860, 5417790, 5420720, 5423650, 5426590, 5429530, 5432480, 5435440, 5438400, 5441360, 5444330, 5447310, 5450290, 5453280, 5456270, 5459270, 5462280, 5465290, 5468300, 5471320, 5474350, 5477380, 5480420, 5483460, 5486510, 5489560, 5492620, 5495690, 5498760, 5501840, 5504920, 5508010, 5511110, 5514210, 5517310, 5520430, 5523540, 5526670, 5529800, 5532930, 5536080, 5539220, 5542380, 5545540, 5548700, 5551880, 5555050, 5558240, 5561430, 5564630, 5567830, 5571040, 5574250, 5577470, 5580700]
def fRD2 : List Int := [5583930, 5587170, 5590420, 5593670, 5596930, 5600200, 5603470, 5606750, 5610030, 5613330, 5616620, 5619930, 5623240, 5626560, 5629880, 5633210, 5636550, 5639890, 5643240, 5646600, 5649960, 5653330, 5656710, 5660100, 5663490, 5666880, 5670290, 5673700, 5677120, 5680540, 5683980, 5687420, 5690860, 5694320, 5697780, 5701240, 5704720, 5708200, 5711690, 5715190, 5718690, 5722200, 5725720, 5729240, 5732780, 5736320, 5739860, 5743420, 5746980, 5750550, 5754130, 5757710, 5761300, 5764900, 5768510, 5772130, 5775750, 5779380, 5783020, 5786660, 5790320, 5793980, 5797650, 5801320, 5805010, 5808700, 5812400, 5816110, 5819830, 5823550, 5827280, 5831020, 5834770, 5838530, 5842300, 5846070, 5849850, 5853640, 5857440, 5861250, 5865060, 5868880, 5872720, 5876560, 5880400, 5884260, 5888130, 5892000, 5895890, 5899780, 5903680, 5907590, 5911510, 5915430, 5919370, 5923310, 5927270, 5931230, 5935200, 5939180, 5943170, 5947170, 5951180, 5955190, 5959220, 5963260, 5967300, 5971350, 5975420, 5979490, 5983570, 5987670, 5991770, 5995880, 6000000, 6004130, 6008270, 6012420, 6016580, 6020740, 6024920, 6029110, 6033310, 6037520, 6041740, 6045970, 6050200, 6054450, 6058710, 6062980, 6067260, 6071550, 6075850, 6080160, 6084480, 6088810, 6093150, 6097510, 6101870, 6106240, 6110630, 6115020, 6119430, 6123850, 6128270, 6132710, 6137160, 6141620, 6146090, 6150580, 6155070, 6159580, 6164090, 6168620, 6173160, 6177710, 6182270, 6186840, 6191430, 6196030, 6200640, 6205260, 6209890, 6214530, 6219190, 6223850, 6228530, 6233230, 6237930, 6242650, 6247370, 6252120, 6256870, 6261630, 6266410, 6271200, 6276000, 6280820, 6285650, 6290490, 6295340, 6300210, 6305090, 6309980, 6314890, 6319810, 6324740, 6329680, 6334640, 6339610, 6344600, 6349600, 6354610, 6359640, 6364680, 6369730, 6374800, 6379880, 6384970, 6390080]
def fRD3 : List Int := [6395200, 6400340, 6405490, 6410660, 6415840, 6421030, 6426240, 6431470, 6436710, 6441960, 6447230, 6452510, 6457810, 6463120, 6468450, 6473790, 6479150, 6484530, 6489920, 6495320, 6500740, 6506180, 6511630, 6517100, 6522580, 6528080, 6533600, 6539130, 6544680, 6550240, 6555820, 6561420, 6567030, 6572660, 6578310, 6583980, 6589660, 6595350, 6601070, 6606800, 6612550, 6618320, 6624110, 6629910, 6635730, 6641570, 6647420, 6653300, 6659190, 6665100, 6671030, 6676970, 6682940, 6688920, 6694930, 6700950, 6706990, 6713050, 6719130, 6725230, 6731340, 6737480, 6743640, 6749810, 6756010, 6762220, 6768460, 6774710, 6780990, 6787290, 6793600, 6799940, 6806300, 6812680, 6819080, 6825500, 6831940, 6838410, 6844890, 6851400, 6857930, 6864480, 6871050, 6877650, 6884260, 6890900, 6897570, 6904250, 6910960, 6917690, 6924440, 6931220, 6938020, 6944840, 6951690, 6958560, 6965460, 6972380, 6979320, 6986290, 6993280, 7000300, 7007340, 7014410, 7021510, 7028620, 7035770, 7042940, 7050130, 7057350, 7064600, 7071880, 7079180, 7086510, 7093860, 7101240, 7108650, 7116090, 7123550, 7131050, 7138570, 7146120, 7153690, 7161300, 7168930, 7176600, 7184290, 7192010, 7199760, 7207550, 7215360, 7223200, 7231070, 7238980, 7246910, 7254880, 7262870, 7270900, 7278960, 7287050, 7295180, 7303330, 7311520, 7319750, 7328000, 7336290, 7344620, 7352970, 7361360, 7369790, 7378250, 7386750, 7395280, 7403840, 7412450, 7421090, 7429760, 7438470, 7447220, 7456010, 7464830, 7473690, 7482590, 7491530, 7500500, 7509520, 7518570, 7527670, 7536800, 7545970, 7555190, 7564450, 7573740, 7583080, 7592460, 7601880, 7611350, 7620860, 7630410, 7640010, 7649650, 7659330, 7669060, 7678830, 7688650, 7698520, 7708430, 7718390, 7728400, 7738450, 7748550, 7758700, 7768900, 7779150, 7789450, 7799800, 7810200, 7820650, 7831150, 7841700]
def fRD4 : List Int := [7852310, 7862970, 7873680, 7884450, 7895270, 7906140, 7917080, 7928060, 7939110, 7950210, 7961370, 7972590, 7983860, 7995200, 8006600, 8018050, 8029570, 8041150, 8052790, 8064490, 8076260, 8088090, 8099990, 8111950, 8123980, 8136080, 8148240, 8160480, 8172780, 8185150, 8197590, 8210100, 8222690, 8235340, 8248080, 8260880, 8273760, 8286720, 8299750, 8312860, 8326050, 8339320, 8352670, 8366100, 8379620, 8393210, 8406890, 8420660, 8434510, 8448450, 8462480, 8476600, 8490800, 8505100, 8519490, 8533980, 8548560, 8563230, 8578000, 8592870, 8607840, 8622920, 8638090, 8653360, 8668750, 8684230, 8699830, 8715530, 8731350, 8747270, 8763310, 8779470, 8795740, 8812130, 8828640, 8845270, 8862020, 8878900, 8895910, 8913040, 8930310, 8947700, 8965230, 8982900, 9000700, 9018650, 9036740, 9054970, 9073350, 9091880, 9110560, 9129390, 9148380, 9167530, 9186840, 9206310, 9225950, 9245760, 9265740, 9285900, 9306230, 9326750, 9347450, 9368340, 9389420, 9410690, 9432160, 9453840, 9475710, 9497800, 9520100, 9542620, 9565360, 9588320, 9611510, 9634940, 9658600, 9682510, 9706670, 9731090, 9755760, 9780690, 9805900, 9831380, 9857150, 9883200, 9909550, 9936200, 9963160, 9990430, 10018000, 10046000, 10074200, 10102800, 10131800, 10161100, 10190800, 10220900, 10251400, 10282300, 10313600, 10345400, 10377500, 10410200, 10443200, 10476800, 10510900, 10545400, 10580500, 10616100, 10652300, 10689100, 10726400, 10764400, 10803000, 10842200, 10882200, 10922800, 10964200, 11006300, 11049300, 11093000, 11137600, 11183100, 11229500, 11276900, 11325400, 11374800, 11425400, 11477200, 11530200, 11584500, 11640100, 11697200, 11755900, 11816100, 11878100, 11941800, 12007600, 12075400, 12145400, 12217900, 12293000, 12370900, 12451900, 12536200, 12624300, 12716500, 12813200, 12915100, 13022800, 13137100, 13259200, 13390400, 13532500, 13688100, 13860700, 14056000, 14283300, 14561110]
def fRD5 : List Int := [14937070, 15212820, 15796190]
/-- `_QNMData_fRD` in units of 1e-8. src/ripplegw/waveforms/IMRPhenomD_QNMdata.py:1014-2020. -/
def fRD : List Int := fRD0 ++ (fRD1 ++ (fRD2 ++ (fRD3 ++ (fRD4 ++ (fRD5)))))

def fdamp0 : List Int := [1400980, 1401020, 1401060, 1401140, 1401770, 1401540, 1401480, 1401500, 1401560, 1401640, 1401720, 1401810, 1401890, 1401980, 1402060, 1402140, 1402230, 1402310, 1402390, 1402470, 1402560, 1402640, 1402720, 1402800, 1402880, 1402960, 1403050, 1403130, 1403210, 1403290, 1403370, 1403450, 1403530, 1403610, 1403690, 1403770, 1403850, 1403930, 1404010, 1404090, 1404170, 1404250, 1404330, 1404400, 1404480, 1404560, 1404640, 1404720, 1404800, 1404870, 1404950, 1405030, 1405110, 1405190, 1405260, 1405340, 1405420, 1405490, 1405570, 1405650, 1405720, 1405800, 1405870, 1405950, 1406030, 1406100, 1406180, 1406250, 1406330, 1406400, 1406480, 1406550, 1406630, 1406700, 1406770, 1406850, 1406920, 1407000, 1407070, 1407140, 1407220, 1407290, 1407360, 1407440, 1407510, 1407580, 1407650, 1407720, 1407800, 1407870, 1407940, 1408010, 1408080, 1408150, 1408220, 1408290, 1408370, 1408440, 1408510, 1408580, 1408650, 1408720, 1408790, 1408850, 1408920, 1408990, 1409060, 1409130, 1409200, 1409270, 1409340, 1409400, 1409470, 1409540, 1409610, 1409670, 1409740, 1409810, 1409880, 1409940, 1410010, 1410070, 1410140, 1410210, 1410270, 1410340, 1410400, 1410470, 1410530, 1410600, 1410660, 1410730, 1410790, 1410860, 1410920, 1410980, 1411050, 1411110, 1411170, 1411240, 1411300, 1411360, 1411420, 1411490, 1411550, 1411610, 1411670, 1411730, 1411800, 1411860, 1411920, 1411980, 1412040, 1412100, 1412160, 1412220, 1412280, 1412340, 1412400, 1412460, 1412520, 1412570, 1412630, 1412690, 1412750, 1412810, 1412870, 1412920, 1412980, 1413040, 1413090, 1413150, 1413210, 1413260, 1413320, 1413380, 1413430, 1413490, 1413540, 1413600, 1413650, 1413710, 1413760, 1413820, 1413870, 1413920, 1413980, 1414030, 1414080, 1414140, 1414190, 1414240, 1414290, 1414350, 1414400, 1414450, 1414500, 1414550, 1414600, 1414660]
def fdamp1 : List Int := [1414710, 1414760, 1414810, 1414860, 1414910, 1414960, 1415000, 1415050, 1415100, 1415150, 1415200, 1415250, 1415300, 1415340, 1415390, 1415440, 1415490, 1415530, 1415580, 1415620, 1415670, 1415720, 1415760, 1415810, 1415850, 1415900, 1415940, 1415990, 1416030, 1416080, 1416120, 1416160, 1416210, 1416250, 1416290, 1416330, 1416380, 1416420, 1416460, 1416500, 1416540, 1416580, 1416620, 1416670, 1416710, 1416750, 1416790, 1416830, 1416860, 1416900, 1416940, 1416980, 1417020, 1417060, 1417100, 1417130, 1417170, 1417210, 1417240, 1417280, 1417320, 1417350, 1417390, 1417420, 1417460, 1417490, 1417530, 1417560, 1417600, 1417630, 1417660, 1417700, 1417730, 1417760, 1417800, 1417830, 1417860, 1417890, 1417920, 1417960, 1417990, 1418020, 1418050, 1418080, 1418110, 1418140, 1418170, 1418190, 1418220, 1418250, 1418280, 1418310, 1418330, 1418360, 1418390, 1418420, 1418440, 1418470, 1418490, 1418520, 1418540, 1418570, 1418590, 1418620, 1418640, 1418670, 1418690, 1418710, 1418740, 1418760, 1418780, 1418800, 1418820, 1418840, 1418870, 1418890, 1418910, 1418930, 1418950, 1418970, 1418990, 1419000, 1419020, 1419040, 1419060, 1419080, 1419090, 1419110, 1419130, 1419140, 1419160, 1419170, 1419190, 1419200, 1419220, 1419230, 1419250, 1419260, 1419270, 1419290, 1419300, 1419310, 1419320, 1419340, 1419350, 1419360, 1419370, 1419380, 1419390, 1419400, 1419410, 1419420, 1419420, 1419430, 1419440, 1419450, 1419460, 1419460, 1419470, 1419470, 1419480, 1419490, 1419490, 1419490, 1419500, 1419500, 1419510, 1419510, 1419510, 1419510, 1419520, 1419520, 1419520, 1419520, 1419520, 1419520, 1419520, 1419520, 1419520, 1419520, 1419520, 1419510, 1419510, 1419510, 1419500, 1419500, 1419500, 1419490, 1419490, 1419480, 1419480, 1419470, 1419460, 1419460, 1419450, 1419440, 1419430, 1419420, 1419410, 1419400]
def fdamp2 : List Int := [1419390, 1419380, 1419370, 1419360, 1419350, 1419340, 1419330, 1419310, 1419300, 1419290, 1419270, 1419260, 1419240, 1419230, 1419210, 1419190, 1419180, 1419160, 1419140, 1419120, 1419110, 1419090, 1419070, 1419050, 1419030, 1419010, 1418980, 1418960, 1418940, 1418920, 1418890, 1418870, 1418850, 1418820, 1418800, 1418770, 1418740, 1418720, 1418690, 1418660, 1418630, 1418600, 1418580, 1418550, 1418520, 1418480, 1418450, 1418420, 1418390, 1418360, 1418320, 1418290, 1418260, 1418220, 1418190, 1418150, 1418110, 1418080, 1418040, 1418000, 1417960, 1417920, 1417880, 1417840, 1417800, 1417760, 1417720, 1417680, 1417630, 1417590, 1417550, 1417500, 1417460, 1417410, 1417360, 1417320, 1417270, 1417220, 1417170, 1417120, 1417070, 1417020, 1416970, 1416920, 1416870, 1416810, 1416760, 1416710, 1416650, 1416590, 1416540, 1416480, 1416420, 1416370, 1416310, 1416250, 1416190, 1416130, 1416070, 1416000, 1415940, 1415880, 1415820, 1415750, 1415690, 1415620, 1415550, 1415490, 1415420, 1415350, 1415280, 1415210, 1415140, 1415070, 1415000, 1414920, 1414850, 1414780, 1414700, 1414620, 1414550, 1414470, 1414390, 1414310, 1414240, 1414160, 1414070, 1413990, 1413910, 1413830, 1413740, 1413660, 1413570, 1413490, 1413400, 1413310, 1413220, 1413130, 1413040, 1412950, 1412860, 1412770, 1412670, 1412580, 1412480, 1412390, 1412290, 1412190, 1412100, 1412000, 1411900, 1411800, 1411690, 1411590, 1411490, 1411380, 1411280, 1411170, 1411060, 1410950, 1410850, 1410740, 1410620, 1410510, 1410400, 1410290, 1410170, 1410060, 1409940, 1409820, 1409700, 1409580, 1409460, 1409340, 1409220, 1409100, 1408970, 1408850, 1408720, 1408590, 1408460, 1408330, 1408200, 1408070, 1407940, 1407810, 1407670, 1407530, 1407400, 1407260, 1407120, 1406980, 1406840, 1406700, 1406550, 1406410, 1406260, 1406120, 1405970, 1405820]
def fdamp3 : List Int := [1405670, 1405520, 1405360, 1405210, 1405050, 1404900, 1404740, 1404580, 1404420, 1404260, 1404100, 1403930, 1403770, 1403600, 1403430, 1403270, 1403100, 1402920, 1402750, 1402580, 1402400, 1402230, 1402050, 1401870, 1401690, 1401510, 1401320, 1401140, 1400950, 1400760, 1400570, 1400380, 1400190, 1400000, 1399800, 1399610, 1399410, 1399210, 1399010, 1398810, 1398600, 1398400, 1398190, 1397980, 1397770, 1397560, 1397350, 1397130, 1396910, 1396700, 1396480, 1396250, 1396030, 1395810, 1395580, 1395350, 1395120, 1394890, 1394660, 1394420, 1394190, 1393950, 1393710, 1393460, 1393220, 1392970, 1392730, 1392480, 1392230, 1391970, 1391720, 1391460, 1391200, 1390940, 1390680, 1390410, 1390140, 1389870, 1389600, 1389330, 1389060, 1388780, 1388500, 1388220, 1387930, 1387650, 1387360, 1387070, 1386780, 1386480, 1386190, 1385890, 1385590, 1385280, 1384980, 1384670, 1384360, 1384050, 1383730, 1383410, 1383090, 1382770, 1382440, 1382120, 1381790, 1381450, 1381120, 1380780, 1380440, 1380100, 1379750, 1379400, 1379050, 1378700, 1378340, 1377980, 1377620, 1377260, 1376890, 1376520, 1376150, 1375770, 1375390, 1375010, 1374620, 1374240, 1373840, 1373450, 1373050, 1372650, 1372250, 1371840, 1371430, 1371020, 1370600, 1370180, 1369760, 1369330, 1368900, 1368470, 1368030, 1367590, 1367150, 1366700, 1366250, 1365790, 1365330, 1364870, 1364410, 1363940, 1363460, 1362980, 1362500, 1362020, 1361530, 1361030, 1360540, 1360040, 1359530, 1359020, 1358510, 1357990, 1357470, 1356940, 1356410, 1355870, 1355330, 1354790, 1354240, 1353680, 1353120, 1352560, 1351990, 1351420, 1350840, 1350260, 1349670, 1349070, 1348480, 1347870, 1347260, 1346650, 1346030, 1345410, 1344780, 1344140, 1343500, 1342850, 1342200, 1341540, 1340880, 1340210, 1339530, 1338850, 1338160, 1337470, 1336760, 1336060, 1335340, 1334620]
def fdamp4 : List Int := [1333900, 1333160, 1332420, 1331680, 1330920, 1330160, 1329400, 1328620, 1327840, 1327050, 1326250, 1325450, 1324640, 1323820, 1322990, 1322160, 1321310, 1320460, 1319600, 1318740, 1317860, 1316970, 1316080, 1315180, 1314270, 1313350, 1312420, 1311480, 1310540, 1309580, 1308610, 1307640, 1306650, 1305660, 1304650, 1303630, 1302610, 1301570, 1300520, 1299460, 1298390, 1297310, 1296220, 1295120, 1294000, 1292880, 1291740, 1290590, 1289420, 1288250, 1287060, 1285860, 1284640, 1283420, 1282180, 1280920, 1279650, 1278370, 1277070, 1275760, 1274430, 1273090, 1271740, 1270360, 1268980, 1267570, 1266150, 1264720, 1263260, 1261790, 1260310, 1258800, 1257280, 1255740, 1254180, 1252600, 1251000, 1249380, 1247740, 1246090, 1244410, 1242710, 1240990, 1239250, 1237480, 1235700, 1233890, 1232050, 1230200, 1228320, 1226410, 1224480, 1222520, 1220540, 1218530, 1216500, 1214430, 1212340, 1210220, 1208070, 1205890, 1203680, 1201440, 1199170, 1196860, 1194520, 1192150, 1189740, 1187300, 1184820, 1182300, 1179750, 1177160, 1174520, 1171850, 1169140, 1166380, 1163580, 1160740, 1157850, 1154920, 1151930, 1148900, 1145820, 1142690, 1139500, 1136260, 1132960, 1129610, 1126200, 1122730, 1119200, 1115610, 1111950, 1108220, 1104420, 1100560, 1096620, 1092610, 1088520, 1084350, 1080090, 1075760, 1071330, 1066820, 1062210, 1057510, 1052700, 1047800, 1042780, 1037660, 1032430, 1027070, 1021590, 1015990, 1010250, 1004380, 998358, 992191, 985869, 979385, 972732, 965903, 958889, 951682, 944272, 936650, 928805, 920725, 912399, 903811, 894949, 885795, 876332, 866542, 856403, 845893, 834985, 823651, 811860, 799576, 786760, 773366, 759343, 744631, 729164, 712861, 695629, 677358, 657914, 637134, 614819, 590712, 564485, 535699, 503750, 467763, 426389, 377349, 316180]
def fdamp5 : List Int := [231310, 167620, 29080]
/-- `_QNMData_fdamp` in units of 1e-8. src/ripplegw/waveforms/IMRPhenomD_QNMdata.py:2022-3028. -/
def fdamp : List Int := fdamp0 ++ (fdamp1 ++ (fdamp2 ++ (fdamp3 ++ (fdamp4 ++ (fdamp5)))))

end Ripple.QNMData

/-
  Generated by tools/gen_noise.py from src/ripplegw/noise_resources/et.dat (all 3000 rows, exact decimals).
  Frequencies in units of 1e-7 Hz, second column in units of 1e-32; `none` is `inf`.
-/
namespace Ripple.NoiseData.ET

/-- decimal exponent of the frequency column -/
def fexp : Nat := 7
/-- decimal exponent of the value column -/
def sexp : Nat := 32
def f0 : List Nat := [10000000, 10030759, 10061612, 10092560, 10123603, 10154742, 10185976, 10217307, 10248734, 10280258, 10311878, 10343596, 10375412, 10407325, 10439336, 10471446, 10503655, 10535963, 10568370, 10600877, 10633483, 10666191, 10698998, 10731907, 10764917, 10798028, 10831241, 10864557, 10897974, 10931495, 10965119, 10998846, 11032677, 11066612, 11100651, 11134795, 11169044, 11203398, 11237859, 11272425, 11307097, 11341876, 11376762, 11411755, 11446856, 11482065, 11517382, 11552808, 11588343, 11623987, 11659741, 11695605, 11731579, 11767663, 11803859, 11840166, 11876585, 11913115, 11949758, 11986514, 12023383, 12060365, 12097461, 12134671, 12171996, 12209435, 12246989, 12284659, 12322445, 12360347, 12398366, 12436502, 12474755, 12513125, 12551614, 12590221, 12628946, 12667791, 12706756, 12745840, 12785044, 12824369, 12863815, 12903382, 12943071, 12982882, 13022816, 13062872, 13103052, 13143355, 13183782, 13224333, 13265010, 13305811, 13346738, 13387790, 13428969, 13470275, 13511708, 13553268, 13594956, 13636772, 13678716, 13720790, 13762993, 13805326, 13847790, 13890384, 13933108, 13975965, 14018953, 14062073, 14105326, 14148712, 14192231, 14235885, 14279672, 14323594, 14367652, 14411845, 14456173, 14500639, 14545241, 14589980, 14634856, 14679871, 14725024, 14770316, 14815748, 14861319, 14907030, 14952882, 14998875, 15045009, 15091286, 15137704, 15184266, 15230970, 15277819, 15324811, 15371948, 15419230, 15466657, 15514231, 15561950, 15609817, 15657830, 15705991, 15754301, 15802759, 15851366, 15900122, 15949029, 15998086, 16047294, 16096653, 16146164, 16195827, 16245643, 16295613, 16345736, 16396013, 16446445, 16497031, 16547774, 16598673, 16649728, 16700940, 16752310, 16803837, 16855524, 16907369, 16959373, 17011538, 17063863, 17116349, 17168997, 17221806, 17274778, 17327913, 17381211, 17434673, 17488300, 17542091, 17596048, 17650171, 17704460, 17758917, 17813541, 17868333, 17923293, 17978423, 18033722, 18089191, 18144831, 18200642, 18256624, 18312779, 18369106, 18425607]
def f1 : List Nat := [18482282, 18539131, 18596154, 18653353, 18710728, 18768280, 18826009, 18883915, 18941999, 19000262, 19058704, 19117326, 19176128, 19235111, 19294276, 19353622, 19413151, 19472863, 19532759, 19592839, 19653104, 19713554, 19774190, 19835012, 19896022, 19957219, 20018605, 20080179, 20141943, 20203897, 20266041, 20328377, 20390904, 20453623, 20516536, 20579642, 20642942, 20706437, 20770127, 20834013, 20898095, 20962375, 21026852, 21091528, 21156402, 21221476, 21286750, 21352226, 21417902, 21483780, 21549861, 21616146, 21682634, 21749327, 21816224, 21883328, 21950638, 22018155, 22085880, 22153813, 22221955, 22290306, 22358868, 22427641, 22496625, 22565822, 22635231, 22704854, 22774691, 22844742, 22915009, 22985493, 23056193, 23127110, 23198246, 23269601, 23341175, 23412969, 23484984, 23557220, 23629679, 23702360, 23775265, 23848395, 23921749, 23995329, 24069135, 24143168, 24217429, 24291919, 24366637, 24441586, 24516764, 24592175, 24667817, 24743691, 24819799, 24896142, 24972719, 25049531, 25126580, 25203866, 25281389, 25359151, 25437152, 25515393, 25593875, 25672598, 25751563, 25830772, 25910223, 25989920, 26069861, 26150048, 26230482, 26311163, 26392092, 26473271, 26554699, 26636377, 26718307, 26800489, 26882923, 26965611, 27048554, 27131751, 27215205, 27298915, 27382882, 27467108, 27551593, 27636338, 27721343, 27806610, 27892139, 27977932, 28063988, 28150309, 28236895, 28323748, 28410868, 28498255, 28585912, 28673838, 28762035, 28850503, 28939243, 29028256, 29117543, 29207104, 29296941, 29387054, 29477444, 29568113, 29659060, 29750287, 29841795, 29933584, 30025656, 30118010, 30210649, 30303573, 30396782, 30490278, 30584062, 30678134, 30772496, 30867148, 30962091, 31057326, 31152853, 31248675, 31344792, 31441204, 31537913, 31634919, 31732223, 31829827, 31927731, 32025936, 32124443, 32223254, 32322368, 32421787, 32521512, 32621543, 32721882, 32822530, 32923488, 33024756, 33126335, 33228227, 33330432, 33432952, 33535787, 33638938, 33742407, 33846194, 33950300, 34054726]
def f2 : List Nat := [34159474, 34264543, 34369936, 34475653, 34581695, 34688064, 34794759, 34901783, 35009136, 35116819, 35224834, 35333180, 35441860, 35550874, 35660224, 35769909, 35879932, 35990294, 36100995, 36212037, 36323420, 36435145, 36547215, 36659629, 36772389, 36885495, 36998950, 37112753, 37226907, 37341412, 37456268, 37571479, 37687043, 37802963, 37919240, 38035874, 38152867, 38270220, 38387933, 38506009, 38624448, 38743251, 38862420, 38981955, 39101858, 39222130, 39342772, 39463785, 39585170, 39706928, 39829061, 39951569, 40074455, 40197718, 40321361, 40445383, 40569788, 40694575, 40819745, 40945301, 41071243, 41197572, 41324290, 41451398, 41578896, 41706787, 41835071, 41963750, 42092825, 42222296, 42352166, 42482435, 42613105, 42744177, 42875652, 43007531, 43139816, 43272508, 43405608, 43539118, 43673038, 43807370, 43942115, 44077275, 44212851, 44348843, 44485254, 44622084, 44759335, 44897009, 45035105, 45173627, 45312575, 45451950, 45591753, 45731987, 45872652, 46013750, 46155282, 46297249, 46439653, 46582494, 46725776, 46869497, 47013661, 47158269, 47303321, 47448819, 47594765, 47741160, 47888005, 48035301, 48183051, 48331255, 48479915, 48629033, 48778609, 48928645, 49079142, 49230103, 49381528, 49533418, 49685776, 49838602, 49991899, 50145667, 50299908, 50454623, 50609814, 50765483, 50921630, 51078258, 51235368, 51392960, 51551038, 51709601, 51868653, 52028193, 52188225, 52348748, 52509766, 52671278, 52833288, 52995795, 53158803, 53322312, 53486324, 53650840, 53815862, 53981392, 54147431, 54313981, 54481043, 54648619, 54816711, 54985319, 55154446, 55324093, 55494262, 55664955, 55836172, 56007916, 56180189, 56352991, 56526325, 56700192, 56874594, 57049532, 57225008, 57401024, 57577581, 57754682, 57932327, 58110519, 58289258, 58468548, 58648389, 58828783, 59009732, 59191237, 59373301, 59555925, 59739111, 59922860, 60107174, 60292055, 60477505, 60663525, 60850117, 61037284, 61225026, 61413345, 61602244, 61791724, 61981786, 62172433, 62363667, 62555489, 62747901, 62940904]
def f3 : List Nat := [63134501, 63328694, 63523484, 63718874, 63914864, 64111457, 64308655, 64506459, 64704871, 64903894, 65103530, 65303779, 65504644, 65706127, 65908230, 66110954, 66314302, 66518275, 66722876, 66928106, 67133968, 67340462, 67547592, 67755359, 67963764, 68172811, 68382501, 68592836, 68803818, 69015449, 69227730, 69440665, 69654255, 69868501, 70083407, 70298973, 70515203, 70732098, 70949660, 71167891, 71386793, 71606369, 71826620, 72047548, 72269156, 72491446, 72714419, 72938079, 73162426, 73387463, 73613192, 73839616, 74066736, 74294555, 74523074, 74752297, 74982224, 75212859, 75444203, 75676259, 75909028, 76142514, 76376717, 76611641, 76847288, 77083659, 77320757, 77558585, 77797144, 78036437, 78276466, 78517233, 78758741, 79000992, 79243988, 79487731, 79732224, 79977469, 80223468, 80470224, 80717739, 80966016, 81215056, 81464861, 81715436, 81966781, 82218899, 82471793, 82725464, 82979916, 83235150, 83491170, 83747977, 84005574, 84263963, 84523147, 84783128, 85043909, 85305492, 85567880, 85831074, 86095078, 86359895, 86625525, 86891973, 87159241, 87427330, 87696244, 87965985, 88236556, 88507959, 88780197, 89053272, 89327188, 89601945, 89877548, 90153999, 90431300, 90709454, 90988463, 91268331, 91549059, 91830651, 92113109, 92396436, 92680634, 92965707, 93251656, 93538485, 93826196, 94114792, 94404276, 94694650, 94985917, 95278080, 95571142, 95865105, 96159973, 96455747, 96752431, 97050028, 97348540, 97647970, 97948322, 98249597, 98551799, 98854930, 99158994, 99463993, 99769930, 100076810, 100384630, 100693400, 101003120, 101313790, 101625420, 101938000, 102251550, 102566060, 102881540, 103197990, 103515410, 103833810, 104153190, 104473550, 104794890, 105117230, 105440550, 105764870, 106090190, 106416510, 106743830, 107072160, 107401500, 107731850, 108063220, 108395600, 108729010, 109063450, 109398910, 109735410, 110072940, 110411510, 110751120, 111091770, 111433470, 111776230, 112120040, 112464900, 112810830, 113157820, 113505870, 113855000, 114205200, 114556480, 114908840, 115262290, 115616820, 115972440, 116329150]
def f4 : List Nat := [116686960, 117045880, 117405890, 117767020, 118129250, 118492600, 118857070, 119222650, 119589370, 119957210, 120326180, 120696280, 121067530, 121439910, 121813450, 122188130, 122563960, 122940950, 123319100, 123698410, 124078890, 124460540, 124843360, 125227360, 125612540, 125998910, 126386460, 126775210, 127165150, 127556300, 127948640, 128342190, 128736960, 129132930, 129530130, 129928540, 130328180, 130729060, 131131160, 131534500, 131939080, 132344910, 132751980, 133160310, 133569890, 133980730, 134392840, 134806210, 135220860, 135636780, 136053980, 136472460, 136892230, 137313290, 137735650, 138159300, 138584260, 139010520, 139438100, 139866990, 140297200, 140728740, 141161600, 141595790, 142031320, 142468190, 142906400, 143345960, 143786870, 144229140, 144672770, 145117760, 145564120, 146011860, 146460970, 146911460, 147363340, 147816610, 148271270, 148727340, 149184800, 149643670, 150103950, 150565650, 151028770, 151493310, 151959290, 152426690, 152895530, 153365820, 153837550, 154310730, 154785370, 155261470, 155739030, 156218060, 156698570, 157180550, 157664010, 158148970, 158635410, 159123350, 159612790, 160103740, 160596190, 161090160, 161585650, 162082670, 162581210, 163081290, 163582900, 164086060, 164590770, 165097020, 165604840, 166114220, 166625160, 167137680, 167651770, 168167440, 168684700, 169203550, 169724000, 170246040, 170769700, 171294960, 171821840, 172350340, 172880460, 173412220, 173945610, 174480640, 175017320, 175555650, 176095630, 176637280, 177180590, 177725570, 178272230, 178820570, 179370600, 179922310, 180475730, 181030850, 181587670, 182146210, 182706470, 183268450, 183832150, 184397590, 184964780, 185533700, 186104380, 186676810, 187251000, 187826960, 188404680, 188984190, 189565480, 190148560, 190733430, 191320090, 191908570, 192498850, 193090950, 193684870, 194280620, 194878200, 195477620, 196078880, 196681990, 197286950, 197893780, 198502470, 199113040, 199725480, 200339810, 200956030, 201574140, 202194150, 202816070, 203439910, 204065660, 204693330, 205322940, 205954490, 206587970, 207223410, 207860800, 208500150, 209141470, 209784750, 210430020, 211077280, 211726520, 212377760, 213031000, 213686260, 214343530, 215002820]
def f5 : List Nat := [215664130, 216327490, 216992880, 217660320, 218329810, 219001360, 219674980, 220350670, 221028440, 221708290, 222390230, 223074270, 223760420, 224448670, 225139040, 225831540, 226526170, 227222930, 227921830, 228622890, 229326100, 230031470, 230739020, 231448740, 232160640, 232874740, 233591020, 234309520, 235030220, 235753140, 236478280, 237205660, 237935270, 238667120, 239401230, 240137590, 240876220, 241617120, 242360300, 243105770, 243853530, 244603590, 245355950, 246110630, 246867630, 247626960, 248388630, 249152640, 249919000, 250687710, 251458790, 252232240, 253008070, 253786290, 254566900, 255349910, 256135330, 256923170, 257713430, 258506120, 259301240, 260098820, 260898850, 261701330, 262506290, 263313720, 264123640, 264936040, 265750950, 266568360, 267388290, 268210740, 269035710, 269863230, 270693290, 271525910, 272361080, 273198820, 274039150, 274882050, 275727550, 276575650, 277426360, 278279680, 279135630, 279994210, 280855430, 281719300, 282585830, 283455030, 284326890, 285201440, 286078680, 286958620, 287841260, 288726620, 289614700, 290505520, 291399070, 292295370, 293194430, 294096260, 295000850, 295908240, 296818410, 297731380, 298647160, 299565750, 300487180, 301411430, 302338530, 303268480, 304201290, 305136970, 306075530, 307016970, 307961310, 308908560, 309858720, 310811800, 311767810, 312726770, 313688670, 314653530, 315621360, 316592170, 317565960, 318542750, 319522540, 320505350, 321491180, 322480040, 323471940, 324466890, 325464910, 326465990, 327470150, 328477410, 329487760, 330501210, 331517790, 332537490, 333560330, 334586310, 335615450, 336647760, 337683240, 338721900, 339763760, 340808830, 341857110, 342908610, 343963350, 345021330, 346082570, 347147070, 348214850, 349285900, 350360260, 351437920, 352518890, 353603190, 354690820, 355781800, 356876130, 357973830, 359074910, 360179370, 361287240, 362398500, 363513190, 364631300, 365752860, 366877860, 368006330, 369138260, 370273680, 371412590, 372555000, 373700930, 374850380, 376003360, 377159900, 378319990, 379483650, 380650880, 381821710, 382996140, 384174180, 385355850, 386541150, 387730090, 388922700, 390118970, 391318920, 392522560, 393729900, 394940960, 396155740, 397374260]
def f6 : List Nat := [398596530, 399822550, 401052350, 402285930, 403523310, 404764490, 406009480, 407258310, 408510980, 409767500, 411027890, 412292150, 413560300, 414832360, 416108320, 417388210, 418672040, 419959820, 421251550, 422547260, 423846960, 425150650, 426458350, 427770080, 429085840, 430405650, 431729510, 433057450, 434389470, 435725590, 437065820, 438410180, 439758660, 441111300, 442468100, 443829060, 445194220, 446563570, 447937140, 449314930, 450696960, 452083240, 453473780, 454868600, 456267720, 457671130, 459078860, 460490920, 461907330, 463328090, 464753220, 466182730, 467616650, 469054970, 470497720, 471944900, 473396540, 474852640, 476313210, 477778290, 479247860, 480721960, 482200600, 483683780, 485171520, 486663840, 488160750, 489662260, 491168390, 492679160, 494194570, 495714640, 497239390, 498768820, 500302970, 501841830, 503385420, 504933760, 506486870, 508044750, 509607420, 511174900, 512747200, 514324340, 515906330, 517493190, 519084920, 520681550, 522283090, 523889560, 525500970, 527117340, 528738680, 530365000, 531996330, 533632680, 535274050, 536920480, 538571970, 540228540, 541890210, 543556990, 545228890, 546905940, 548588140, 550275520, 551968090, 553665870, 555368860, 557077100, 558790590, 560509350, 562233400, 563962750, 565697420, 567437420, 569182780, 570933500, 572689610, 574451130, 576218060, 577990420, 579768240, 581551520, 583340290, 585134560, 586934350, 588739680, 590550560, 592367010, 594189050, 596016690, 597849950, 599688850, 601533410, 603383640, 605239560, 607101190, 608968550, 610841650, 612720510, 614605160, 616495590, 618391850, 620293930, 622201870, 624115670, 626035360, 627960960, 629892480, 631829940, 633773360, 635722750, 637678150, 639639550, 641606990, 643580490, 645560050, 647545700, 649537460, 651535340, 653539370, 655549570, 657565940, 659588520, 661617320, 663652370, 665693670, 667741250, 669795120, 671855320, 673921850, 675994740, 678074000, 680159660, 682251730, 684350240, 686455210, 688566650, 690684580, 692809030, 694940010, 697077550, 699221660, 701372360, 703529690, 705693640, 707864260, 710041550, 712225530, 714416240, 716613680, 718817880, 721028860, 723246650, 725471250, 727702700, 729941010, 732186200, 734438300]
def f7 : List Nat := [736697330, 738963310, 741236250, 743516190, 745803140, 748097130, 750398170, 752706280, 755021500, 757343840, 759673320, 762009970, 764353800, 766704850, 769063120, 771428650, 773801460, 776181560, 778568980, 780963750, 783365890, 785775410, 788192340, 790616710, 793048530, 795487840, 797934650, 800388980, 802850860, 805320320, 807797370, 810282040, 812774350, 815274330, 817782000, 820297380, 822820500, 825351380, 827890040, 830436510, 832990820, 835552980, 838123020, 840700970, 843286840, 845880670, 848482480, 851092300, 853710130, 856336030, 858969990, 861612060, 864262260, 866920610, 869587130, 872261860, 874944810, 877636020, 880335500, 883043290, 885759400, 888483870, 891216720, 893957980, 896707670, 899465810, 902232440, 905007580, 907791260, 910583490, 913384320, 916193760, 919011840, 921838590, 924674040, 927518200, 930371120, 933232800, 936103300, 938982620, 941870790, 944767860, 947673830, 950588740, 953512610, 956445480, 959387370, 962338310, 965298330, 968267450, 971245700, 974233120, 977229720, 980235540, 983250600, 986274940, 989308580, 992351560, 995403890, 998465610, 1001536700, 1004617300, 1007707400, 1010807000, 1013916100, 1017034700, 1020163000, 1023300800, 1026448400, 1029605600, 1032772500, 1035949200, 1039135600, 1042331800, 1045537900, 1048753800, 1051979600, 1055215400, 1058461100, 1061716800, 1064982400, 1068258200, 1071544000, 1074839900, 1078146000, 1081462200, 1084788600, 1088125300, 1091472200, 1094829400, 1098196900, 1101574800, 1104963100, 1108361800, 1111771000, 1115190600, 1118620800, 1122061500, 1125512800, 1128974700, 1132447300, 1135930600, 1139424500, 1142929200, 1146444700, 1149971000, 1153508200, 1157056200, 1160615100, 1164185000, 1167765900, 1171357800, 1174960700, 1178574700, 1182199800, 1185836100, 1189483600, 1193142300, 1196812200, 1200493400, 1204186000, 1207889900, 1211605200, 1215331900, 1219070100, 1222819800, 1226581000, 1230353800, 1234138200, 1237934200, 1241741900, 1245561300, 1249392500, 1253235500, 1257090200, 1260956900, 1264835400, 1268725900, 1272628300, 1276542700, 1280469200, 1284407700, 1288358400, 1292321200, 1296296200, 1300283400, 1304282900, 1308294700, 1312318800, 1316355300, 1320404200, 1324465600, 1328539500, 1332625900, 1336724800, 1340836400, 1344960600, 1349097500, 1353247200, 1357409600]
def f8 : List Nat := [1361584800, 1365772800, 1369973700, 1374187600, 1378414400, 1382654200, 1386907000, 1391173000, 1395452000, 1399744200, 1404049600, 1408368300, 1412700200, 1417045500, 1421404100, 1425776200, 1430161700, 1434560600, 1438973100, 1443399200, 1447838900, 1452292200, 1456759300, 1461240100, 1465734600, 1470243000, 1474765300, 1479301500, 1483851600, 1488415700, 1492993900, 1497586100, 1502192500, 1506813000, 1511447700, 1516096700, 1520760000, 1525437700, 1530129700, 1534836200, 1539557100, 1544292600, 1549042600, 1553807200, 1558586500, 1563380500, 1568189200, 1573012800, 1577851100, 1582704400, 1587572500, 1592455700, 1597353900, 1602267100, 1607195400, 1612138900, 1617097600, 1622071600, 1627060900, 1632065500, 1637085500, 1642120900, 1647171900, 1652238300, 1657320400, 1662418100, 1667531400, 1672660500, 1677805400, 1682966100, 1688142600, 1693335100, 1698543600, 1703768100, 1709008600, 1714265300, 1719538100, 1724827200, 1730132500, 1735454100, 1740792100, 1746146600, 1751517500, 1756904900, 1762308900, 1767729500, 1773166800, 1778620800, 1784091600, 1789579200, 1795083700, 1800605100, 1806143500, 1811698900, 1817271500, 1822861100, 1828468000, 1834092100, 1839733500, 1845392300, 1851068400, 1856762100, 1862473200, 1868201900, 1873948200, 1879712200, 1885493900, 1891293500, 1897110800, 1902946000, 1908799200, 1914670400, 1920559700, 1926467100, 1932392600, 1938336400, 1944298400, 1950278800, 1956277600, 1962294800, 1968330500, 1974384900, 1980457800, 1986549400, 1992659700, 1998788900, 2004936900, 2011103800, 2017289600, 2023494500, 2029718500, 2035961600, 2042224000, 2048505600, 2054806500, 2061126800, 2067466500, 2073825700, 2080204500, 2086602900, 2093021000, 2099458900, 2105916500, 2112394000, 2118891400, 2125408800, 2131946300, 2138503900, 2145081600, 2151679600, 2158297800, 2164936400, 2171595500, 2178275000, 2184975000, 2191695700, 2198437100, 2205199100, 2211982000, 2218785800, 2225610400, 2232456100, 2239322800, 2246210700, 2253119700, 2260050000, 2267001600, 2273974500, 2280968900, 2287984900, 2295022400, 2302081600, 2309162400, 2316265100, 2323389600, 2330536000, 2337704400, 2344894900, 2352107400, 2359342200, 2366599200, 2373878500, 2381180200, 2388504400, 2395851100, 2403220400, 2410612300, 2418027000, 2425464600, 2432924900, 2440408300, 2447914600, 2455444100, 2462996700, 2470572500, 2478171600, 2485794100, 2493440100, 2501109500, 2508802600]
def f9 : List Nat := [2516519300, 2524259800, 2532024000, 2539812200, 2547624300, 2555460400, 2563320600, 2571205000, 2579113700, 2587046700, 2595004100, 2602985900, 2610992400, 2619023400, 2627079200, 2635159700, 2643265000, 2651395400, 2659550700, 2667731100, 2675936600, 2684167400, 2692423600, 2700705100, 2709012100, 2717344600, 2725702800, 2734086600, 2742496300, 2750931800, 2759393300, 2767880800, 2776394400, 2784934200, 2793500300, 2802092700, 2810711500, 2819356900, 2828028800, 2836727400, 2845452800, 2854205000, 2862984100, 2871790300, 2880623500, 2889483900, 2898371500, 2907286500, 2916228900, 2925198800, 2934196300, 2943221500, 2952274400, 2961355200, 2970463900, 2979600600, 2988765400, 2997958400, 3007179700, 3016429400, 3025707500, 3035014200, 3044349400, 3053713400, 3063106200, 3072527900, 3081978500, 3091458300, 3100967200, 3110505300, 3120072800, 3129669700, 3139296100, 3148952100, 3158637800, 3168353400, 3178098800, 3187874100, 3197679600, 3207515200, 3217381100, 3227277300, 3237203900, 3247161100, 3257148900, 3267167400, 3277216800, 3287297000, 3297408300, 3307550600, 3317724200, 3327929000, 3338165300, 3348433000, 3358732300, 3369063300, 3379426100, 3389820700, 3400247300, 3410706000, 3421196800, 3431719900, 3442275400, 3452863400, 3463483900, 3474137100, 3484823000, 3495541800, 3506293600, 3517078500, 3527896500, 3538747800, 3549632500, 3560550700, 3571502400, 3582487900, 3593507100, 3604560200, 3615647300, 3626768500, 3637924000, 3649113700, 3660337900, 3671596500, 3682889800, 3694217900, 3705580800, 3716978600, 3728411500, 3739879600, 3751382900, 3762921600, 3774495900, 3786105700, 3797751200, 3809432500, 3821149800, 3832903100, 3844692600, 3856518300, 3868380400, 3880279000, 3892214200, 3904186100, 3916194800, 3928240500, 3940323200, 3952443100, 3964600200, 3976794800, 3989026800, 4001296500, 4013603900, 4025949200, 4038332400, 4050753800, 4063213300, 4075711200, 4088247500, 4100822400, 4113435900, 4126088300, 4138779500, 4151509800, 4164279300, 4177088000, 4189936100, 4202823800, 4215751100, 4228718100, 4241725100, 4254772000, 4267859100, 4280986400, 4294154100, 4307362300, 4320611100, 4333900700, 4347231200, 4360602700, 4374015300, 4387469100, 4400964300, 4414501100, 4428079500, 4441699600, 4455361600, 4469065700, 4482811900, 4496600400, 4510431300, 4524304700, 4538220900, 4552179800, 4566181600, 4580226600, 4594314700, 4608446200, 4622621100, 4636839600]
def f10 : List Nat := [4651101900, 4665408000, 4679758100, 4694152400, 4708591000, 4723073900, 4737601400, 4752173600, 4766790600, 4781452600, 4796159700, 4810912000, 4825709600, 4840552800, 4855441700, 4870376300, 4885356900, 4900383600, 4915456500, 4930575700, 4945741500, 4960953900, 4976213100, 4991519200, 5006872400, 5022272800, 5037720600, 5053215900, 5068758900, 5084349700, 5099988400, 5115675300, 5131410300, 5147193800, 5163025900, 5178906600, 5194836200, 5210814800, 5226842500, 5242919500, 5259046000, 5275222100, 5291447900, 5307723600, 5324049500, 5340425500, 5356851900, 5373328800, 5389856400, 5406434800, 5423064200, 5439744800, 5456476700, 5473260000, 5490095000, 5506981800, 5523920500, 5540911200, 5557954300, 5575049800, 5592197800, 5609398600, 5626652400, 5643959100, 5661319200, 5678732600, 5696199500, 5713720200, 5731294800, 5748923500, 5766606400, 5784343600, 5802135400, 5819982000, 5837883400, 5855839900, 5873851700, 5891918800, 5910041500, 5928219900, 5946454300, 5964744800, 5983091500, 6001494600, 6019954300, 6038470900, 6057044300, 6075675000, 6094362900, 6113108300, 6131911300, 6150772200, 6169691100, 6188668200, 6207703700, 6226797700, 6245950400, 6265162100, 6284432800, 6303762900, 6323152300, 6342601400, 6362110400, 6381679300, 6401308500, 6420998000, 6440748100, 6460558900, 6480430700, 6500363500, 6520357700, 6540413400, 6560530800, 6580710100, 6600951400, 6621255000, 6641621000, 6662049700, 6682541200, 6703095800, 6723713600, 6744394700, 6765139500, 6785948100, 6806820800, 6827757600, 6848758800, 6869824600, 6890955200, 6912150800, 6933411600, 6954737800, 6976129600, 6997587200, 7019110700, 7040700500, 7062356700, 7084079500, 7105869100, 7127725800, 7149649700, 7171641000, 7193699900, 7215826700, 7238021600, 7260284700, 7282616300, 7305016600, 7327485800, 7350024100, 7372631700, 7395308900, 7418055800, 7440872700, 7463759800, 7486717200, 7509745300, 7532844200, 7556014200, 7579255400, 7602568100, 7625952500, 7649408900, 7672937400, 7696538200, 7720211700, 7743958000, 7767777300, 7791669900, 7815635900, 7839675700, 7863789500, 7887977400, 7912239700, 7936576600, 7960988400, 7985475200, 8010037400, 8034675200, 8059388700, 8084178200, 8109044000, 8133986300, 8159005200, 8184101200, 8209274300, 8234524900, 8259853100, 8285259200, 8310743500, 8336306200, 8361947500, 8387667600, 8413466900, 8439345600, 8465303800, 8491341900, 8517460000, 8543658500, 8569937600]
def f11 : List Nat := [8596297500, 8622738500, 8649260800, 8675864700, 8702550400, 8729318200, 8756168400, 8783101100, 8810116700, 8837215400, 8864397400, 8891663000, 8919012500, 8946446100, 8973964100, 9001566700, 9029254300, 9057027000, 9084885100, 9112828900, 9140858700, 9168974700, 9197177100, 9225466400, 9253842600, 9282306100, 9310857100, 9339496000, 9368223000, 9397038300, 9425942300, 9454935100, 9484017200, 9513188600, 9542449900, 9571801100, 9601242600, 9630774600, 9660397500, 9690111500, 9719916900, 9749814000, 9779803100, 9809884400, 9840058200, 9870324800, 9900684500, 9931137600, 9961684400, 9992325100, 10023060000, 10053890000, 10084814000, 10115833000, 10146948000, 10178159000, 10209465000, 10240868000, 10272368000, 10303964000, 10335658000, 10367449000, 10399337000, 10431324000, 10463410000, 10495594000, 10527876000, 10560259000, 10592741000, 10625322000, 10658004000, 10690787000, 10723670000, 10756655000, 10789741000, 10822928000, 10856218000, 10889610000, 10923105000, 10956703000, 10990404000, 11024209000, 11058118000, 11092131000, 11126249000, 11160472000, 11194800000, 11229234000, 11263773000, 11298419000, 11333171000, 11368030000, 11402997000, 11438071000, 11473253000, 11508543000, 11543942000, 11579449000, 11615066000, 11650792000, 11686628000, 11722575000, 11758632000, 11794800000, 11831079000, 11867469000, 11903972000, 11940587000, 11977314000, 12014155000, 12051109000, 12088176000, 12125358000, 12162654000, 12200064000, 12237590000, 12275231000, 12312988000, 12350861000, 12388850000, 12426957000, 12465180000, 12503521000, 12541981000, 12580558000, 12619254000, 12658069000, 12697003000, 12736058000, 12775232000, 12814527000, 12853942000, 12893479000, 12933138000, 12972918000, 13012821000, 13052847000, 13092995000, 13133268000, 13173664000, 13214184000, 13254829000, 13295599000, 13336494000, 13377515000, 13418663000, 13459937000, 13501337000, 13542866000, 13584522000, 13626306000, 13668218000, 13710260000, 13752431000, 13794731000, 13837162000, 13879723000, 13922415000, 13965238000, 14008193000, 14051281000, 14094500000, 14137853000, 14181339000, 14224959000, 14268713000, 14312601000, 14356625000, 14400784000, 14445079000, 14489510000, 14534077000, 14578782000, 14623624000, 14668604000, 14713723000, 14758980000, 14804377000, 14849913000, 14895589000, 14941406000, 14987364000, 15033463000, 15079703000, 15126086000, 15172612000, 15219281000, 15266093000, 15313050000, 15360150000, 15407396000, 15454787000, 15502324000, 15550007000, 15597836000, 15645813000, 15693937000, 15742210000, 15790630000, 15839200000]
def f12 : List Nat := [15887919000, 15936788000, 15985807000, 16034978000, 16084299000, 16133772000, 16183397000, 16233175000, 16283106000, 16333190000, 16383429000, 16433822000, 16484370000, 16535074000, 16585933000, 16636949000, 16688122000, 16739452000, 16790941000, 16842587000, 16894393000, 16946357000, 16998482000, 17050767000, 17103213000, 17155820000, 17208588000, 17261520000, 17314614000, 17367871000, 17421292000, 17474877000, 17528628000, 17582543000, 17636625000, 17690872000, 17745287000, 17799869000, 17854619000, 17909537000, 17964624000, 18019881000, 18075308000, 18130905000, 18186673000, 18242612000, 18298724000, 18355008000, 18411466000, 18468097000, 18524902000, 18581882000, 18639037000, 18696368000, 18753876000, 18811560000, 18869422000, 18927461000, 18985679000, 19044077000, 19102653000, 19161411000, 19220348000, 19279467000, 19338768000, 19398252000, 19457918000, 19517768000, 19577802000, 19638020000, 19698424000, 19759013000, 19819789000, 19880752000, 19941903000, 20003241000, 20064768000, 20126484000, 20188391000, 20250487000, 20312775000, 20375254000, 20437926000, 20500790000, 20563847000, 20627099000, 20690545000, 20754186000, 20818023000, 20882056000, 20946286000, 21010714000, 21075340000, 21140165000, 21205189000, 21270413000, 21335838000, 21401464000, 21467292000, 21533322000, 21599556000, 21665993000, 21732634000, 21799481000, 21866533000, 21933791000, 22001256000, 22068929000, 22136810000, 22204900000, 22273199000, 22341708000, 22410428000, 22479359000, 22548503000, 22617859000, 22687428000, 22757211000, 22827209000, 22897422000, 22967852000, 23038497000, 23109361000, 23180442000, 23251741000, 23323261000, 23395000000, 23466959000, 23539140000, 23611543000, 23684169000, 23757018000, 23830091000, 23903389000, 23976913000, 24050662000, 24124639000, 24198843000, 24273275000, 24347936000, 24422827000, 24497948000, 24573300000, 24648884000, 24724701000, 24800750000, 24877034000, 24953552000, 25030306000, 25107295000, 25184522000, 25261986000, 25339688000, 25417630000, 25495811000, 25574232000, 25652895000, 25731799000, 25810947000, 25890338000, 25969973000, 26049852000, 26129978000, 26210350000, 26290970000, 26371837000, 26452953000, 26534318000, 26615934000, 26697801000, 26779920000, 26862291000, 26944915000, 27027794000, 27110928000, 27194317000, 27277963000, 27361866000, 27446027000, 27530448000, 27615127000, 27700067000, 27785269000, 27870732000, 27956459000, 28042449000, 28128704000, 28215223000, 28302010000, 28389062000, 28476383000, 28563972000, 28651831000, 28739960000, 28828360000, 28917032000, 29005977000, 29095195000, 29184688000, 29274456000]
def f13 : List Nat := [29364500000, 29454821000, 29545420000, 29636297000, 29727454000, 29818892000, 29910610000, 30002611000, 30094895000, 30187463000, 30280315000, 30373453000, 30466877000, 30560589000, 30654589000, 30748878000, 30843457000, 30938327000, 31033489000, 31128944000, 31224692000, 31320735000, 31417073000, 31513708000, 31610639000, 31707869000, 31805398000, 31903227000, 32001357000, 32099788000, 32198523000, 32297561000, 32396903000, 32496552000, 32596506000, 32696769000, 32797339000, 32898219000, 32999410000, 33100911000, 33202725000, 33304852000, 33407293000, 33510049000, 33613121000, 33716510000, 33820217000, 33924243000, 34028590000, 34133257000, 34238246000, 34343558000, 34449194000, 34555154000, 34661441000, 34768055000, 34874996000, 34982267000, 35089867000, 35197799000, 35306062000, 35414659000, 35523589000, 35632855000, 35742456000, 35852395000, 35962672000, 36073288000, 36184244000, 36295542000, 36407182000, 36519165000, 36631493000, 36744166000, 36857186000, 36970553000, 37084270000, 37198336000, 37312752000, 37427521000, 37542643000, 37658119000, 37773950000, 37890137000, 38006682000, 38123585000, 38240848000, 38358471000, 38476456000, 38594804000, 38713516000, 38832594000, 38952037000, 39071848000, 39192028000, 39312577000, 39433497000, 39554788000, 39676453000, 39798493000, 39920907000, 40043698000, 40166867000, 40290414000, 40414342000, 40538651000, 40663342000, 40788417000, 40913876000, 41039721000, 41165954000, 41292574000, 41419584000, 41546985000, 41674778000, 41802963000, 41931543000, 42060519000, 42189891000, 42319661000, 42449830000, 42580400000, 42711371000, 42842745000, 42974524000, 43106707000, 43239297000, 43372295000, 43505702000, 43639519000, 43773748000, 43908390000, 44043446000, 44178918000, 44314806000, 44451112000, 44587837000, 44724983000, 44862551000, 45000541000, 45138957000, 45277798000, 45417066000, 45556762000, 45696888000, 45837446000, 45978435000, 46119858000, 46261716000, 46404011000, 46546743000, 46689914000, 46833526000, 46977579000, 47122075000, 47267016000, 47412403000, 47558236000, 47704519000, 47851251000, 47998435000, 48146071000, 48294162000, 48442708000, 48591711000, 48741172000, 48891093000, 49041475000, 49192319000, 49343628000, 49495402000, 49647643000, 49800352000, 49953531000, 50107181000, 50261303000, 50415900000, 50570972000, 50726521000, 50882549000, 51039056000, 51196045000, 51353517000, 51511473000, 51669915000, 51828844000, 51988262000, 52148171000, 52308571000, 52469465000, 52630854000, 52792739000, 52955122000, 53118004000, 53281387000, 53445273000, 53609663000, 53774559000, 53939962000, 54105874000]
def f14 : List Nat := [54272296000, 54439230000, 54606677000, 54774639000, 54943118000, 55112116000, 55281633000, 55451671000, 55622233000, 55793319000, 55964931000, 56137071000, 56309741000, 56482942000, 56656675000, 56830943000, 57005747000, 57181088000, 57356969000, 57533391000, 57710356000, 57887865000, 58065919000, 58244522000, 58423674000, 58603377000, 58783632000, 58964443000, 59145809000, 59327733000, 59510217000, 59693262000, 59876870000, 60061042000, 60245781000, 60431089000, 60616966000, 60803416000, 60990438000, 61178036000, 61366211000, 61554965000, 61744299000, 61934216000, 62124717000, 62315804000, 62507478000, 62699742000, 62892598000, 63086046000, 63280090000, 63474731000, 63669970000, 63865810000, 64062252000, 64259298000, 64456951000, 64655211000, 64854081000, 65053563000, 65253659000, 65454370000, 65655698000, 65857646000, 66060215000, 66263406000, 66467223000, 66671667000, 66876740000, 67082443000, 67288779000, 67495750000, 67703357000, 67911603000, 68120489000, 68330018000, 68540192000, 68751012000, 68962480000, 69174599000, 69387370000, 69600796000, 69814878000, 70029619000, 70245020000, 70461083000, 70677812000, 70895207000, 71113270000, 71332004000, 71551412000, 71771494000, 71992252000, 72213690000, 72435809000, 72658612000, 72882099000, 73106274000, 73331139000, 73556695000, 73782945000, 74009891000, 74237535000, 74465879000, 74694925000, 74924676000, 75155134000, 75386300000, 75618178000, 75850769000, 76084075000, 76318099000, 76552842000, 76788308000, 77024498000, 77261414000, 77499060000, 77737436000, 77976545000, 78216390000, 78456972000, 78698295000, 78940359000, 79183169000, 79426725000, 79671030000, 79916087000, 80161898000, 80408464000, 80655789000, 80903875000, 81152724000, 81402338000, 81652720000, 81903872000, 82155797000, 82408496000, 82661973000, 82916230000, 83171268000, 83427091000, 83683701000, 83941100000, 84199291000, 84458276000, 84718058000, 84978639000, 85240021000, 85502207000, 85765200000, 86029001000, 86293614000, 86559041000, 86825285000, 87092347000, 87360231000, 87628938000, 87898472000, 88168836000, 88440030000, 88712059000, 88984925000, 89258630000, 89533177000, 89808568000, 90084807000, 90361895000, 90639835000, 90918630000, 91198283000, 91478796000, 91760172000, 92042413000, 92325522000, 92609503000, 92894356000, 93180086000, 93466695000, 93754185000, 94042560000, 94331821000, 94621973000, 94913016000, 95204955000, 95497792000, 95791530000, 96086171000, 96381718000, 96678175000, 96975543000, 97273826000, 97573027000, 97873147000, 98174191000, 98476161000, 98779060000, 99082890000, 99387655000, 99693357000, 100000000000]
/-- frequency column -/
def freqs : List Nat := f0 ++ (f1 ++ (f2 ++ (f3 ++ (f4 ++ (f5 ++ (f6 ++ (f7 ++ (f8 ++ (f9 ++ (f10 ++ (f11 ++ (f12 ++ (f13 ++ (f14))))))))))))))
/-- number of leading rows whose value is `inf` -/
def ninf : Nat := 0
def s0 : List Nat := [3495951700000000, 3544543600000000, 3579773400000000, 3614015000000000, 3650460800000000, 3671642900000000, 3687115700000000, 3688364700000000, 3683473200000000, 3680078300000000, 3658734400000000, 3608499700000000, 3563602000000000, 3518882700000000, 3469602000000000, 3437178500000000, 3388885500000000, 3315731800000000, 3247001800000000, 3171264800000000, 3087957000000000, 3020205400000000, 2950507900000000, 2911697300000000, 3573220000000000, 2759465400000000, 2642175700000000, 2575776000000000, 2492042900000000, 2389165100000000, 2331972400000000, 2220391400000000, 2103153700000000, 1988661500000000, 1879922600000000, 1772562400000000, 1669190400000000, 1566560700000000, 1437254200000000, 1317514400000000, 1213941200000000, 1093110700000000, 993123040000000, 903837440000000, 806851650000000, 728968340000000, 659441240000000, 587412040000000, 530363040000000, 481438460000000, 431963460000000, 392349130000000, 356964830000000, 321720910000000, 293153380000000, 267520290000000, 242225860000000, 221460830000000, 202742620000000, 184385230000000, 169132110000000, 155322220000000, 141836680000000, 130893870000000, 121984920000000, 113191410000000, 105802080000000, 99047361000000, 92388876000000, 86756851000000, 81595930000000, 76513500000000, 72199171000000, 68241746000000, 64347148000000, 61044352000000, 58018524000000, 55041719000000, 52684611000000, 50974980000000, 49268484000000, 47950831000000, 46803701000000, 45658828000000, 44913141000000, 44343206000000, 43774174000000, 43703514000000, 43852212000000, 43998774000000, 44960421000000, 46278991000000, 47586167000000, 50792200000000, 54749336000000, 58627033000000, 71210995000000, 86877495000000, 101288080000000, 129184670000000, 155975980000000, 174692220000000, 159782780000000, 120490890000000, 64483565000000, 37866560000000, 30065822000000, 22220477000000, 17737594000000, 14873489000000, 12018016000000, 10146466000000, 8748047800000, 7356312700000, 6373008600000, 5588163500000, 4807537700000, 4229492500000, 3751004000000, 3275242800000, 2911474100000, 2603370100000, 2297098000000, 2056440300000, 1847093300000, 1639694800000, 1474436500000, 1330757200000, 1188464500000, 1073494800000, 972683400000, 872881900000, 791330970000, 719348540000, 648116420000, 589365590000, 537235220000, 485672150000, 442742600000, 404347120000, 366423250000, 334686040000, 306317560000, 278316880000, 254749710000, 233626360000, 212794550000, 195174870000, 179348350000, 163756910000, 150514280000, 138600390000, 126879610000, 116965100000, 108195370000, 99549849000, 92158867000, 85489370000, 78927666000, 73304959000, 68230780000, 63251720000, 58977568000, 55122186000, 51351562000, 48110387000, 45189365000, 42343841000, 39931266000, 37851087000, 35813820000, 34053261000, 32460976000, 30907146000, 29559880000, 28340186000, 27153796000, 26120006000, 25181833000, 24271518000, 23472645000, 22744561000, 22039064000, 21411500000, 20829931000, 20268125000, 19765370000, 19301478000, 18852812000, 18445885000, 18066860000, 17699482000, 17361548000, 17043662000, 16734705000, 16446588000, 16172969000, 15906272000, 15657619000, 15425895000]
def s1 : List Nat := [15197469000, 14978210000, 14765519000, 14555790000, 14353243000, 14156020000, 13961488000, 13772689000, 13588290000, 13406365000, 13229106000, 13055556000, 12884302000, 12717024000, 12553114000, 12391291000, 12232714000, 12076890000, 11923044000, 11772022000, 11623463000, 11476785000, 11332604000, 11190655000, 11050500000, 10912587000, 10776721000, 10642567000, 10510267000, 10379539000, 10250560000, 10123540000, 9998355900, 9874817300, 9753061800, 9633002600, 9514500900, 9397645000, 9282372500, 9168580400, 9056323700, 8945556800, 8836201700, 8728283500, 8621761200, 8516593500, 8412796000, 8310341800, 8209183300, 8109325700, 8010747900, 7913411700, 7817315300, 7722441700, 7628759200, 7536261400, 7444934400, 7354751100, 7265703900, 7177781900, 7090957800, 7005220900, 6920560700, 6836956100, 6754395500, 6672869500, 6592358700, 6512851100, 6434338000, 6356801500, 6280229500, 6204613700, 6129937700, 6056190600, 5983366500, 5911445600, 5840416200, 5770271000, 5700995400, 5632577800, 5565011200, 5498281600, 5432377700, 5367293000, 5303014000, 5239529800, 5176833900, 5114913700, 5053758000, 4993360200, 4933709400, 4874795100, 4816611500, 4759146800, 4702391100, 4646338600, 4590978200, 4536300200, 4482299100, 4428964300, 4376286300, 4324259900, 4272874900, 4222122100, 4171996500, 4122488500, 4073589200, 4025293700, 3977592800, 3930477800, 3883944200, 3837983000, 3792585900, 3747748500, 3703462200, 3659719000, 3616514600, 3573840800, 3531690000, 3490058000, 3448936700, 3408319000, 3368200700, 3328574300, 3289432600, 3250771900, 3212584700, 3174864300, 3137606800, 3100805400, 3064453500, 3028547300, 2993080200, 2958045900, 2923440800, 2889258600, 2855493000, 2822140700, 2789195600, 2756651700, 2724505800, 2692751900, 2661384400, 2630400100, 2599793300, 2569558600, 2539692900, 2510190700, 2481046700, 2452258100, 2423819600, 2395726100, 2367974700, 2340560400, 2313478400, 2286725900, 2260298000, 2234190000, 2208399300, 2182921300, 2157751400, 2132887000, 2108323700, 2084057100, 2060084700, 2036402300, 2013005600, 1989892300, 1967058200, 1944499300, 1922213200, 1900196100, 1878444000, 1856954700, 1835724400, 1814749400, 1794027400, 1773554900, 1753328100, 1733345100, 1713602400, 1694096300, 1674825000, 1655785100, 1636973200, 1618387400, 1600024400, 1581881100, 1563955400, 1546244400, 1528745000, 1511455200, 1494372100, 1477492800, 1460815500, 1444337300, 1428055200, 1411967800, 1396072100, 1380365500]
def s2 : List Nat := [1364846200, 1349511600, 1334359100, 1319387100, 1304593100, 1289974400, 1275529500, 1261256100, 1247151600, 1233214500, 1219442600, 1205833300, 1192385400, 1179096600, 1165964500, 1152987700, 1140164300, 1127491800, 1114969000, 1102593800, 1090364100, 1078278600, 1066335300, 1054532100, 1042867900, 1031340700, 1019948500, 1008690200, 997563830, 986567560, 975700260, 964960150, 954345360, 943854820, 933486840, 923239610, 913112100, 903102680, 893209620, 883431910, 873768000, 864216210, 854775590, 845444620, 836221700, 827105900, 818095780, 809189790, 800387040, 791686130, 783085580, 774584530, 766181630, 757875470, 749665200, 741549550, 733527130, 725597140, 717758350, 710009440, 702349630, 694777740, 687292490, 679893130, 672578530, 665347460, 658199190, 651132650, 644146640, 637240470, 630413100, 623663380, 616990650, 610393890, 603872020, 597424400, 591050040, 584747900, 578517370, 572357500, 566267280, 560246130, 554293130, 548407330, 542588140, 536834700, 531146080, 525521730, 519960810, 514462420, 509026040, 503650870, 498336030, 493081030, 487885090, 482747380, 477667410, 472644450, 467677690, 462766660, 457910650, 453108900, 448360940, 443666110, 439023660, 434433140, 429893920, 425405280, 420966800, 416577860, 412237770, 407946130, 403702340, 399505740, 395355940, 391252390, 387194430, 383181700, 379213660, 375289700, 371409460, 367572410, 363777980, 360025830, 356315450, 352646290, 349018030, 345430170, 341882200, 338373790, 334904500, 331473800, 328081410, 324726880, 321409730, 318129670, 314886290, 311679110, 308507860, 305372150, 302271520, 299205720, 296174370, 293177040, 290213470, 287283310, 284386150, 281521740, 278689760, 275889790, 273121620, 270384930, 267679330, 265004620, 262360480, 259746570, 257162680, 254608520, 252083760, 249588210, 247121600, 244683620, 242274090, 239892770, 237539350, 235213690, 232915560, 230644680, 228400910, 226184040, 223993830, 221830160, 219692830, 217581620, 215496430, 213437090, 211403400, 209395280, 207412580, 205455130, 203522850, 201615640, 199733320, 197875870, 196043170, 194235100, 192451630, 190692680, 188958130, 187247980, 185562160, 183900590, 182263260, 180650130, 179061120, 177496240, 175955460, 174438710, 172946020, 171477340]
def s3 : List Nat := [170032630, 168611900, 167215120, 165842220, 164493240, 163168120, 161866790, 160589270, 159335490, 158105380, 156898910, 155716020, 154556600, 153420590, 152307910, 151218420, 150152030, 149108620, 148088010, 147090100, 146114710, 145161630, 144230710, 143321740, 142434490, 141568740, 140724260, 139900760, 139098010, 138315740, 137553620, 136811390, 136088730, 135385320, 134700840, 134034970, 133387350, 132757660, 132145540, 131550630, 130972600, 130411090, 129865730, 129336170, 128822060, 128323030, 127838750, 127368870, 126913010, 126470870, 126042100, 125626360, 125223330, 124832700, 124454140, 124087360, 123732050, 123387920, 123054680, 122732070, 122419810, 122117630, 121825290, 121542520, 121269100, 121004800, 120749370, 120502610, 120264300, 120034220, 119812180, 119597970, 119391400, 119192270, 119000400, 118815570, 118637620, 118466340, 118301530, 118143000, 117990560, 117843990, 117703100, 117567690, 117437550, 117312510, 117192380, 117077000, 116966210, 116859890, 116757920, 116660200, 116566660, 116477210, 116391810, 116310420, 116232970, 116159420, 116089720, 116023830, 115961670, 115903210, 115848360, 115797050, 115749230, 115704800, 115663680, 115625800, 115591070, 115559410, 115530740, 115504960, 115482000, 115461770, 115444190, 115429180, 115416650, 115406530, 115398740, 115393190, 115389820, 115388550, 115389300, 115392010, 115396590, 115402990, 115411120, 115420930, 115432340, 115445300, 115459730, 115475570, 115492760, 115511240, 115530940, 115551810, 115573800, 115596830, 115620860, 115645820, 115671670, 115698350, 115725810, 115753990, 115782850, 115812320, 115842370, 115872950, 115904000, 115935480, 115967340, 115999530, 116032020, 116064760, 116097700, 116130800, 116164010, 116197310, 116230640, 116263970, 116297260, 116330470, 116363550, 116396480, 116429220, 116461720, 116493970, 116525910, 116557520, 116588770, 116619610, 116650020, 116679970, 116709420, 116738340, 116766710, 116794490, 116821660, 116848180, 116874030, 116899180, 116923610, 116947280, 116970170, 116992260, 117013520, 117033920, 117053450, 117072070, 117089770, 117106520, 117122300, 117137090, 117150860, 117163590, 117175270, 117185870, 117195380, 117203770, 117211030]
def s4 : List Nat := [117217130, 117222060, 117225790, 117228320, 117229630, 117229690, 117228490, 117226020, 117222260, 117217190, 117210800, 117203070, 117194000, 117183550, 117171730, 117158520, 117143900, 117127870, 117110410, 117091500, 117071140, 117049320, 117026010, 117001230, 116974950, 116947160, 116917850, 116887030, 116854670, 116820770, 116785330, 116748320, 116709760, 116669640, 116627930, 116584650, 116539810, 116493360, 116445340, 116395750, 116344530, 116291760, 116237440, 116181440, 116123950, 116065060, 116004510, 115942260, 115878430, 115813330, 115746760, 115678610, 115609180, 115538370, 115466170, 115392840, 115318340, 115242700, 115166250, 115089010, 115011090, 114932980, 114854820, 114776920, 114700110, 114624880, 114552000, 114483250, 114420120, 114364840, 114322200, 114297710, 114299200, 114344850, 114463640, 114692390, 115154010, 116182500, 126134460, 179666630, 233916130, 222307910, 163027000, 122138440, 116432460, 114496160, 113483740, 112891790, 112472760, 112152160, 111884810, 111649770, 111436860, 111238210, 111048710, 110865780, 110687240, 110511430, 110337470, 110164590, 109992110, 109819680, 109646980, 109473690, 109299670, 109124750, 108948790, 108771700, 108593410, 108413840, 108232950, 108050710, 107867060, 107682000, 107495510, 107307550, 107118140, 106927270, 106734920, 106541090, 106345810, 106149040, 105950820, 105751150, 105550020, 105347460, 105143490, 104938080, 104731290, 104523150, 104313600, 104102700, 103890530, 103677030, 103462200, 103246080, 103028780, 102810270, 102590520, 102369650, 102147630, 101924480, 101700280, 101475030, 101248760, 101021530, 100793360, 100564280, 100334350, 100103620, 99872096, 99639871, 99406976, 99173454, 98939389, 98704827, 98469824, 98234474, 97998840, 97762992, 97527046, 97291085, 97055203, 96819547, 96584233, 96349395, 96115230, 95881913, 95649641, 95418705, 95189383, 94961997, 94737010, 94514915, 94296284, 94081948, 93872878, 93670225, 93475691, 93291484, 93120280, 92966237, 92835414, 92735370, 92679022, 92688281, 92791188, 93045534, 93578530, 94653519, 97046770, 101815560, 117365130, 163847000, 199434870, 193785660, 146013720, 100297540, 93094961, 91146269]
def s5 : List Nat := [90023655, 89235203, 88641152, 88173552, 87781713, 87441022, 87137549, 86860654, 86603899, 86363322, 86135766, 85919064, 85711841, 85512967, 85321608, 85137240, 84959429, 84787841, 84622284, 84462601, 84308673, 84160449, 84017899, 83880999, 83749768, 83624229, 83504406, 83390348, 83282102, 83179714, 83083241, 82992739, 82908257, 82829853, 82757580, 82691483, 82631610, 82578005, 82530703, 82489739, 82455142, 82426931, 82405125, 82389734, 82380761, 82378203, 82382053, 82392291, 82408896, 82431837, 82461074, 82496564, 82538255, 82586086, 82639993, 82699901, 82765731, 82837396, 82914804, 82997854, 83086441, 83180453, 83279774, 83384280, 83493843, 83608329, 83727601, 83851515, 83979923, 84112673, 84249609, 84390569, 84535389, 84683901, 84835932, 84991306, 85149844, 85311363, 85475677, 85642595, 85811925, 85983470, 86157032, 86332406, 86509388, 86687769, 86867336, 87047876, 87229171, 87411001, 87593142, 87775370, 87957456, 88139171, 88320282, 88500556, 88679757, 88857647, 89033988, 89208543, 89381069, 89551328, 89719080, 89884085, 90046105, 90204900, 90360237, 90511880, 90659598, 90803163, 90942348, 91076933, 91206699, 91331434, 91450930, 91564984, 91673402, 91775992, 91872573, 91962968, 92047008, 92124535, 92195396, 92259448, 92316557, 92366597, 92409453, 92445020, 92473201, 92493910, 92507071, 92512620, 92510500, 92500666, 92483084, 92457730, 92424590, 92383658, 92334943, 92278459, 92214233, 92142299, 92062702, 91975495, 91880742, 91778512, 91668884, 91551945, 91427790, 91296519, 91158242, 91013072, 90861130, 90702543, 90537442, 90365963, 90188248, 90004442, 89814694, 89619155, 89417982, 89211332, 88999364, 88782242, 88560128, 88333187, 88101586, 87865490, 87625066, 87380480, 87131900, 86879490, 86623416, 86363842, 86100931, 85834844, 85565741, 85293780, 85019118, 84741907, 84462301, 84180447, 83896494, 83610584, 83322860, 83033461, 82742521, 82450175, 82156551, 81861777, 81565976, 81269269, 80971774, 80673605, 80374874, 80075688, 79776152, 79476368, 79176436, 78876450]
def s6 : List Nat := [78576504, 78276686, 77977083, 77677780, 77378855, 77080388, 76782453, 76485122, 76188464, 75892547, 75597433, 75303185, 75009861, 74717517, 74426208, 74135985, 73846897, 73558991, 73272312, 72986903, 72702803, 72420052, 72138687, 71858741, 71580247, 71303238, 71027741, 70753785, 70481397, 70210600, 69941419, 69673875, 69407991, 69143786, 68881283, 68620501, 68361465, 68104207, 67848760, 67595182, 67343627, 67094905, 66854373, 66619169, 66375732, 66128109, 65881234, 65636698, 65393579, 65154211, 64918901, 64686010, 64455092, 64226057, 63998867, 63773501, 63549945, 63328188, 63108222, 62890038, 62673629, 62458989, 62246109, 62034982, 61825601, 61617958, 61412044, 61207851, 61005369, 60804590, 60605505, 60408104, 60212376, 60018312, 59825902, 59635135, 59446000, 59258486, 59072582, 58888278, 58705561, 58524420, 58344844, 58166820, 57990337, 57815382, 57641944, 57470011, 57299569, 57130608, 56963113, 56797074, 56632478, 56469311, 56307562, 56147218, 55988266, 55830694, 55674489, 55519639, 55366131, 55213952, 55063089, 54913531, 54765265, 54618277, 54472556, 54328090, 54184865, 54042870, 53902092, 53762519, 53624139, 53486939, 53350907, 53216032, 53082301, 52949702, 52818225, 52687856, 52558584, 52430397, 52303285, 52177234, 52052235, 51928276, 51805345, 51683431, 51562523, 51442610, 51323682, 51205727, 51088735, 50972695, 50857596, 50743428, 50630181, 50517844, 50406407, 50295860, 50186193, 50077396, 49969459, 49862372, 49756126, 49650712, 49546119, 49442338, 49339361, 49237177, 49135778, 49035155, 48935299, 48836201, 48737852, 48640244, 48543368, 48447216, 48351779, 48257049, 48163017, 48069677, 47977020, 47885037, 47793721, 47703065, 47613060, 47523700, 47434976, 47346881, 47259409, 47172551, 47086300, 47000651, 46915595, 46831125, 46747236, 46663920, 46581170, 46498981, 46417345, 46336256, 46255708, 46175695, 46096210, 46017248, 45938802, 45860867, 45783436, 45706504, 45630065, 45554114, 45478645, 45403652, 45329130, 45255074, 45181478, 45108337, 45035647, 44963401]
def s7 : List Nat := [44891595, 44820225, 44749284, 44678769, 44608674, 44538995, 44469728, 44400867, 44332408, 44264347, 44196680, 44129401, 44062507, 43995994, 43929857, 43864093, 43798696, 43733664, 43668993, 43604678, 43540715, 43477102, 43413833, 43350906, 43288318, 43226063, 43164139, 43102543, 43041270, 42980318, 42919684, 42859363, 42799353, 42739651, 42680253, 42621157, 42562358, 42503855, 42445645, 42387724, 42330089, 42272738, 42215668, 42158876, 42102359, 42046115, 41990142, 41934435, 41878994, 41823815, 41768896, 41714234, 41659828, 41605674, 41551770, 41498115, 41444705, 41391538, 41338613, 41285927, 41233478, 41181264, 41129282, 41077531, 41026008, 40974713, 40923642, 40872793, 40822166, 40771757, 40721566, 40671590, 40621827, 40572276, 40522935, 40473802, 40424876, 40376155, 40327636, 40279320, 40231204, 40183286, 40135565, 40088040, 40040708, 39993569, 39946621, 39899863, 39853292, 39806909, 39760711, 39714697, 39668866, 39623216, 39577747, 39532456, 39487344, 39442407, 39397646, 39353059, 39308645, 39264403, 39220331, 39176429, 39132696, 39089130, 39045730, 39002495, 38959425, 38916518, 38873773, 38831190, 38788766, 38746503, 38704397, 38662449, 38620658, 38579023, 38537542, 38496216, 38455043, 38414022, 38373152, 38332434, 38291865, 38251446, 38211175, 38171051, 38131075, 38091245, 38051561, 38012021, 37972625, 37933373, 37894264, 37855297, 37816471, 37777787, 37739242, 37700838, 37662572, 37624445, 37586456, 37548604, 37510889, 37473310, 37435868, 37398560, 37361387, 37324348, 37287443, 37250671, 37214032, 37177526, 37141151, 37104907, 37068795, 37032813, 36996961, 36961239, 36925646, 36890182, 36854846, 36819639, 36784559, 36749607, 36714782, 36680083, 36645511, 36611065, 36576745, 36542550, 36508480, 36474534, 36440714, 36407017, 36373444, 36339995, 36306670, 36273467, 36240387, 36207430, 36174595, 36141883, 36109292, 36076823, 36044475, 36012248, 35980143, 35948158, 35916294, 35884551, 35852927, 35821424, 35790041, 35758777, 35727633, 35696609, 35665703, 35634917]
def s8 : List Nat := [35604250, 35573702, 35543273, 35512962, 35482770, 35452696, 35422740, 35392903, 35363184, 35333582, 35304099, 35274734, 35245486, 35216356, 35187344, 35158449, 35129672, 35101012, 35072469, 35044044, 35015737, 34987546, 34959473, 34931518, 34903679, 34875957, 34848353, 34820866, 34793496, 34766244, 34739108, 34712090, 34685189, 34658405, 34631738, 34605189, 34578756, 34552442, 34526244, 34500164, 34474201, 34448356, 34422629, 34397018, 34371526, 34346151, 34320895, 34295755, 34270734, 34245831, 34221046, 34196379, 34171831, 34147400, 34123088, 34098895, 34074820, 34050864, 34027027, 34003309, 33979710, 33956230, 33932870, 33909629, 33886507, 33863506, 33840624, 33817862, 33795220, 33772699, 33750298, 33728017, 33705857, 33683819, 33661901, 33640104, 33618429, 33596876, 33575444, 33554134, 33532946, 33511881, 33490938, 33470118, 33449421, 33428846, 33408395, 33388068, 33367864, 33347784, 33327828, 33307997, 33288290, 33268708, 33249251, 33229919, 33210712, 33191631, 33172677, 33153848, 33135146, 33116570, 33098122, 33079800, 33061606, 33043540, 33025602, 33007792, 32990110, 32972557, 32955134, 32937839, 32920674, 32903639, 32886735, 32869960, 32853317, 32836804, 32820423, 32804173, 32788056, 32772070, 32756217, 32740498, 32724911, 32709458, 32694138, 32678953, 32663902, 32648987, 32634206, 32619561, 32605051, 32590678, 32576441, 32562341, 32548379, 32534554, 32520866, 32507318, 32493907, 32480636, 32467504, 32454512, 32441660, 32428949, 32416378, 32403949, 32391661, 32379515, 32367512, 32355651, 32343934, 32332360, 32320931, 32309646, 32298505, 32287510, 32276660, 32265957, 32255400, 32244990, 32234727, 32224612, 32214645, 32204827, 32195157, 32185638, 32176268, 32167049, 32157980, 32149062, 32140297, 32131683, 32123222, 32114914, 32106760, 32098760, 32090914, 32083223, 32075688, 32068308, 32061085, 32054019, 32047110, 32040358, 32033766, 32027331, 32021057, 32014942, 32008987, 32003193, 31997561, 31992090, 31986781, 31981636, 31976654, 31971835, 31967181, 31962692]
def s9 : List Nat := [31958369, 31954211, 31950220, 31946396, 31942739, 31939251, 31935931, 31932780, 31929800, 31926989, 31924349, 31921881, 31919585, 31917461, 31915510, 31913733, 31912131, 31910702, 31909450, 31908373, 31907473, 31906750, 31906204, 31905837, 31905649, 31905640, 31905811, 31906162, 31906695, 31907410, 31908307, 31909387, 31910651, 31912099, 31913732, 31915551, 31917555, 31919747, 31922125, 31924692, 31927447, 31930391, 31933525, 31936850, 31940366, 31944073, 31947973, 31952066, 31956353, 31960834, 31965510, 31970382, 31975450, 31980715, 31986177, 31991838, 31997698, 32003758, 32010017, 32016478, 32023140, 32030005, 32037073, 32044344, 32051820, 32059501, 32067387, 32075480, 32083781, 32092289, 32101005, 32109931, 32119067, 32128414, 32137972, 32147742, 32157725, 32167921, 32178332, 32188958, 32199799, 32210857, 32222133, 32233626, 32245338, 32257269, 32269421, 32281794, 32294389, 32307206, 32320246, 32333511, 32347000, 32360716, 32374657, 32388826, 32403223, 32417849, 32432705, 32447792, 32463109, 32478660, 32494443, 32510460, 32526713, 32543201, 32559926, 32576889, 32594090, 32611531, 32629212, 32647135, 32665301, 32683711, 32702365, 32721265, 32740413, 32759808, 32779454, 32799350, 32819498, 32839899, 32860556, 32881470, 32902642, 32924074, 32945768, 32967726, 32989950, 33012443, 33035207, 33058246, 33081561, 33105157, 33129038, 33153207, 33177671, 33202434, 33227503, 33252885, 33278590, 33304627, 33331009, 33357750, 33384868, 33412383, 33440323, 33468719, 33497614, 33527058, 33557121, 33587891, 33619488, 33652073, 33685873, 33721210, 33758559, 33798637, 33842581, 33892274, 33951021, 34025082, 34127517, 34289479, 34601444, 35426140, 39572328, 588815340, 38849520, 35384091, 34712551, 34494907, 34412019, 34382812, 34379170, 34389286, 34407509, 34430862, 34457657, 34486882, 34517898, 34550289, 34583774, 34618155, 34653295, 34689092, 34725472, 34762378, 34799767, 34837608, 34875873, 34914544, 34953603, 34993038, 35032840, 35072998, 35113508, 35154364, 35195560, 35237094]
def s10 : List Nat := [35278962, 35321163, 35363694, 35406554, 35449741, 35493255, 35537095, 35581261, 35625751, 35670567, 35715707, 35761173, 35806963, 35853079, 35899520, 35946288, 35993381, 36040801, 36088549, 36136624, 36185027, 36233760, 36282821, 36332213, 36381935, 36431989, 36482375, 36533094, 36584146, 36635532, 36687253, 36739310, 36791704, 36844434, 36897502, 36950910, 37004656, 37058743, 37113171, 37167941, 37223053, 37278509, 37334310, 37390455, 37446946, 37503784, 37560970, 37618504, 37676387, 37734620, 37793205, 37852141, 37911429, 37971071, 38031067, 38091419, 38152126, 38213190, 38274612, 38336392, 38398532, 38461032, 38523893, 38587116, 38650701, 38714651, 38778965, 38843644, 38908690, 38974103, 39039884, 39106034, 39172554, 39239444, 39306706, 39374340, 39442348, 39510729, 39579486, 39648619, 39718129, 39788016, 39858282, 39928927, 39999953, 40071360, 40143150, 40215322, 40287879, 40360820, 40434147, 40507861, 40581962, 40656452, 40731332, 40806601, 40882262, 40958315, 41034761, 41111601, 41188836, 41266467, 41344494, 41422920, 41501743, 41580966, 41660590, 41740615, 41821042, 41901873, 41983107, 42064747, 42146793, 42229246, 42312106, 42395376, 42479055, 42563145, 42647647, 42732561, 42817889, 42903632, 42989790, 43076364, 43163356, 43250766, 43338596, 43426846, 43515518, 43604611, 43694128, 43784069, 43874435, 43965228, 44056447, 44148095, 44240172, 44332679, 44425618, 44518988, 44612791, 44707029, 44801702, 44896811, 44992357, 45088341, 45184764, 45281628, 45378933, 45476680, 45574870, 45673505, 45772585, 45872112, 45972086, 46072508, 46173380, 46274703, 46376477, 46478704, 46581386, 46684522, 46788114, 46892163, 46996671, 47101638, 47207065, 47312955, 47419308, 47526125, 47633407, 47741157, 47849374, 47958062, 48067221, 48176854, 48286962, 48397547, 48508613, 48620162, 48732199, 48844729, 48957760, 49071304, 49185377, 49300009, 49415249, 49531196, 49648057, 49766362, 49887783, 50020307, 50268931, 50824041, 50386977, 50480974, 50594498, 50712303, 50831839, 50952389]
def s11 : List Nat := [51073692, 51195634, 51318158, 51441236, 51564851, 51688993, 51813656, 51938838, 52064536, 52190749, 52317478, 52444722, 52572481, 52700757, 52829549, 52958859, 53088687, 53219036, 53349905, 53481295, 53613209, 53745647, 53878610, 54012099, 54146116, 54280662, 54415738, 54551345, 54687485, 54824159, 54961368, 55099114, 55237397, 55376219, 55515581, 55655485, 55795932, 55936923, 56078460, 56220543, 56363175, 56506357, 56650089, 56794373, 56939211, 57084604, 57230554, 57377061, 57524127, 57671753, 57819941, 57968693, 58118009, 58267891, 58418341, 58569359, 58720948, 58873108, 59025841, 59179149, 59333033, 59487494, 59642534, 59798154, 59954356, 60111141, 60268511, 60426467, 60585010, 60744143, 60903866, 61064181, 61225090, 61386593, 61548693, 61711392, 61874690, 62038589, 62203090, 62368196, 62533907, 62700226, 62867154, 63034691, 63202841, 63371604, 63540982, 63710977, 63881590, 64052823, 64224677, 64397155, 64570257, 64743985, 64918340, 65093326, 65268942, 65445191, 65622075, 65799594, 65977752, 66156548, 66335986, 66516066, 66696791, 66878162, 67060181, 67242849, 67426169, 67610141, 67794769, 67980054, 68165997, 68352601, 68539869, 68727801, 68916402, 69105675, 69295626, 69486262, 69677600, 69869678, 70062613, 70256948, 70459503, 70692948, 70841896, 71036042, 71232294, 71429512, 71627509, 71826235, 72025673, 72225817, 72426663, 72628213, 72830466, 73033424, 73237088, 73441460, 73646541, 73852332, 74058837, 74266056, 74473992, 74682646, 74892021, 75102118, 75312939, 75524486, 75736761, 75949766, 76163503, 76377974, 76593181, 76809126, 77025811, 77243238, 77461409, 77680327, 77899992, 78120407, 78341574, 78563496, 78786174, 79009610, 79233807, 79458766, 79684490, 79910981, 80138241, 80366271, 80595074, 80824653, 81055022, 81286178, 81518115, 81750837, 81984344, 82218639, 82453724, 82689602, 82926275, 83163744, 83402013, 83641083, 83880957, 84121636, 84363123, 84605421, 84848531, 85092456, 85337198, 85582779, 85829377, 86076799, 86325047, 86574123, 86824029, 87074768]
def s12 : List Nat := [87326342, 87578753, 87832005, 88086098, 88341036, 88596821, 88853456, 89110942, 89369283, 89628480, 89888537, 90149457, 90411241, 90673895, 90937424, 91201837, 91467165, 91733571, 92005892, 92269854, 92537119, 92806618, 93077123, 93348548, 93620876, 93894105, 94168235, 94443268, 94719205, 94996050, 95273804, 95552470, 95832051, 96112549, 96393966, 96676306, 96959571, 97243763, 97528886, 97814942, 98101933, 98389863, 98678734, 98968548, 99259309, 99551020, 99843682, 100137300, 100431870, 100727410, 101023900, 101321370, 101619800, 101919200, 102219580, 102520930, 102823270, 103126590, 103430890, 103736180, 104042460, 104349740, 104658010, 104967280, 105277560, 105588840, 105901880, 106216260, 106531650, 106848060, 107165480, 107483920, 107803390, 108123880, 108445410, 108767960, 109091550, 109416180, 109741860, 110068570, 110396340, 110725150, 111055020, 111385950, 111717930, 112050990, 112385100, 112720290, 113056560, 113393920, 113732460, 114578230, 114412550, 114754080, 115096820, 115440670, 115785630, 116131680, 116478850, 116827120, 117176500, 117527000, 117878620, 118231350, 118585220, 118940210, 119296330, 119653590, 120011990, 120371530, 120732210, 121094040, 121457030, 121821170, 122186470, 122552930, 122920550, 123289350, 123659320, 124030470, 124402790, 124776300, 125151000, 125526880, 125903960, 126282240, 126661720, 127042400, 127424300, 127807400, 128191720, 128577260, 128964020, 129352010, 129741230, 130131680, 130523380, 130916310, 131310490, 131705910, 132102590, 132500530, 132899730, 133300190, 133701920, 134104920, 134509200, 134914750, 135321600, 135729740, 136139490, 136549980, 136961870, 137375170, 137789790, 138205720, 138622960, 139041520, 139461410, 139882620, 140305170, 140729050, 141154260, 141580820, 142008730, 142437990, 142868600, 143300570, 143733900, 144168610, 144604680, 145042130, 145480960, 145921170, 146362770, 146805770, 147250160, 147695950, 148143150, 148591750, 149041770, 149493210, 149946070, 150400360, 150856080, 151313230, 151771830, 152231870, 152693350, 153156290, 153620690, 154086550, 154553880, 155022670, 155492940, 155964700, 156437930, 156912660, 157388880, 157866600]
def s13 : List Nat := [158345870, 158826650, 159308790, 159792540, 160277820, 160764620, 161252950, 161742820, 162234230, 162727180, 163221680, 163717740, 164215360, 164714540, 165215280, 165717610, 166221510, 166726990, 167234060, 167742720, 168252980, 168764850, 169278320, 169793400, 170310100, 170828430, 171348380, 171869960, 172393180, 172918050, 173444560, 173972720, 174502540, 175034030, 175567180, 176102000, 176638510, 177176700, 177716570, 178258140, 178801410, 179346390, 179893070, 180441480, 180994140, 181543440, 182097010, 182652320, 183209380, 183768180, 184328730, 184891050, 185455120, 186020970, 186588590, 187157980, 187729170, 188302140, 188876920, 189453490, 190031870, 190612070, 191194080, 191777920, 192363590, 192951100, 193540450, 194131640, 194724690, 195319600, 195916370, 196515010, 197115530, 197717930, 198322220, 198928410, 199536490, 200146480, 200758390, 201372210, 201987950, 202605630, 203225260, 203846800, 204470290, 205095740, 205723160, 206352540, 206983890, 207617230, 208252540, 208889850, 209529160, 210170470, 210813790, 211459130, 212106490, 212755880, 213407300, 214060770, 214716280, 215373850, 216033480, 216695180, 217358950, 218024800, 218692740, 219362780, 220034910, 220709150, 221385510, 222063980, 222744580, 223427320, 224112200, 224799220, 225488400, 226179760, 226873240, 227568930, 228266790, 228966840, 229669080, 230373530, 231080190, 231789060, 232500160, 233213490, 233929050, 234646860, 235366920, 236089240, 236813830, 237540690, 238269830, 239001250, 239734980, 240471000, 241209330, 241949980, 242692960, 243438270, 244185910, 244935900, 245688250, 246442960, 247200040, 247959490, 248721340, 249485560, 250252190, 251021220, 251792680, 252566550, 253342860, 254121600, 254902790, 255686440, 256472540, 257261120, 258052170, 258845710, 259641740, 260440280, 261241320, 262044890, 262850970, 263659600, 264470760, 265284480, 266100750, 266919590, 267741010, 268565010, 269391600, 270220790, 271052690, 271887010, 272724060, 273563730, 274406060, 275251030, 276098660, 276948960, 277801940, 278657610, 279515970, 280377030, 281240800, 282107300, 282976530, 283848490, 284723210, 285600680, 286480910, 287363930, 288249720, 289138310, 290029700, 290923910]
def s14 : List Nat := [291820930, 292720780, 293623500, 294529020, 295437420, 296348690, 297262830, 298179860, 299099790, 300022620, 300948370, 301877040, 302808650, 303743200, 304680710, 305621180, 306564620, 307511040, 308460460, 309412890, 310368320, 311326780, 312288270, 313252810, 314220420, 315191090, 316164840, 317141670, 318121590, 319104620, 320090770, 321080040, 322072450, 323068010, 324066720, 325068600, 326073660, 327081910, 328093360, 329108030, 330125910, 331147030, 332171390, 333199010, 334229890, 335264060, 336301510, 337342260, 338386320, 339433700, 340484420, 341538480, 342595900, 343656690, 344720850, 345788410, 346859370, 347933750, 349011550, 350092790, 351177490, 352265640, 353357270, 354452390, 355551000, 356653130, 357758770, 358867960, 359980690, 361096980, 362216850, 363340300, 364467350, 365598000, 366732290, 367870200, 369011770, 370157000, 371305910, 372458500, 373614790, 374774800, 375938540, 377106020, 378277250, 379452250, 380631030, 381813610, 383000000, 384190210, 385384260, 386582150, 387783920, 388989560, 390199090, 391412540, 392629900, 393851200, 395076450, 396305670, 397538860, 398776060, 400017260, 401262480, 402511750, 403765070, 405022460, 406283940, 407549520, 408819210, 410093040, 411371020, 412653160, 413939480, 415229990, 416524720, 417823670, 419126880, 420434340, 421746080, 423062110, 424382460, 425707130, 427036150, 428369540, 429707300, 431049460, 432396040, 433747050, 435102510, 436462440, 437826860, 439195790, 440569230, 441947230, 443329780, 444716910, 446108640, 447504990, 448905980, 450311630, 451721960, 453136980, 454556720, 455981200, 457410440, 458844460, 460283270, 461726910, 463175390, 464628740, 466086970, 467550110, 469018180, 470491200, 471969200, 473452190, 474940210, 476433270, 477931400, 479434620, 480942960, 482456440, 483975080, 485498920, 487027970, 488562260, 490101820, 491646680, 493196850, 494752380, 496313280, 497879580, 499451320, 501028510, 502611190, 504199390, 505793140, 507392470, 508997410, 510607990, 512224240, 513846190, 515473880, 517107340, 518746600, 520391710, 522042680, 523699570, 525362400, 527031210, 528706040, 530386930, 532073910, 533767030, 535466330, 537171850, 538883630, 540601710, 542326130]
/-- value column after the leading `inf` rows -/
def vals : List Nat := s0 ++ (s1 ++ (s2 ++ (s3 ++ (s4 ++ (s5 ++ (s6 ++ (s7 ++ (s8 ++ (s9 ++ (s10 ++ (s11 ++ (s12 ++ (s13 ++ (s14))))))))))))))

end Ripple.NoiseData.ET

/-
  Generated by tools/gen_noise.py from src/ripplegw/noise_resources/ce.dat (all 3000 rows, exact decimals).
  Frequencies in units of 1e-7 Hz, second column in units of 1e-32; `none` is `inf`.
-/
namespace Ripple.NoiseData.CE

/-- decimal exponent of the frequency column -/
def fexp : Nat := 7
/-- decimal exponent of the value column -/
def sexp : Nat := 32
def f0 : List Nat := [50000000, 50115300, 50230867, 50346699, 50462799, 50579167, 50695803, 50812708, 50929882, 51047327, 51165042, 51283029, 51401288, 51519820, 51638625, 51757704, 51877058, 51996687, 52116592, 52236773, 52357231, 52477968, 52598982, 52720276, 52841849, 52963703, 53085838, 53208254, 53330953, 53453934, 53577199, 53700749, 53824583, 53948703, 54073109, 54197802, 54322783, 54448051, 54573609, 54699456, 54825594, 54952022, 55078742, 55205754, 55333058, 55460657, 55588550, 55716737, 55845220, 55974000, 56103076, 56232451, 56362123, 56492094, 56622366, 56752937, 56883810, 57014985, 57146461, 57278242, 57410326, 57542714, 57675408, 57808408, 57941715, 58075329, 58209251, 58343482, 58478023, 58612873, 58748035, 58883508, 59019294, 59155393, 59291806, 59428533, 59565576, 59702935, 59840610, 59978603, 60116914, 60255544, 60394494, 60533764, 60673355, 60813269, 60953505, 61094064, 61234947, 61376155, 61517689, 61659550, 61801737, 61944252, 62087096, 62230269, 62373773, 62517607, 62661773, 62806272, 62951104, 63096269, 63241770, 63387606, 63533778, 63680288, 63827135, 63974321, 64121846, 64269711, 64417918, 64566466, 64715357, 64864591, 65014169, 65164092, 65314361, 65464977, 65615939, 65767250, 65918910, 66070920, 66223280, 66375991, 66529055, 66682471, 66836241, 66990366, 67144846, 67299683, 67454877, 67610428, 67766338, 67922608, 68079238, 68236229, 68393582, 68551299, 68709378, 68867823, 69026632, 69185808, 69345351, 69505262, 69665542, 69826191, 69987211, 70148602, 70310365, 70472502, 70635012, 70797897, 70961157, 71124794, 71288808, 71453201, 71617972, 71783124, 71948656, 72114571, 72280867, 72447548, 72614612, 72782062, 72949898, 73118121, 73286732, 73455732, 73625121, 73794901, 73965073, 74135637, 74306594, 74477946, 74649693, 74821835, 74994375, 75167313, 75340649, 75514385, 75688522, 75863060, 76038001, 76213345, 76389094, 76565248, 76741808, 76918775, 77096150, 77273934, 77452129, 77630734, 77809751, 77989181, 78169025, 78349283, 78529957, 78711048, 78892556, 79074483]
def f1 : List Nat := [79256829, 79439596, 79622784, 79806395, 79990429, 80174888, 80359772, 80545082, 80730819, 80916985, 81103581, 81290606, 81478063, 81665952, 81854274, 82043031, 82232223, 82421851, 82611916, 82802420, 82993363, 83184746, 83376571, 83568838, 83761548, 83954703, 84148303, 84342350, 84536844, 84731786, 84927179, 85123021, 85319316, 85516063, 85713263, 85910919, 86109030, 86307598, 86506624, 86706109, 86906054, 87106460, 87307328, 87508660, 87710455, 87912716, 88115444, 88318638, 88522302, 88726435, 88931039, 89136114, 89341663, 89547686, 89754183, 89961157, 90168608, 90376538, 90584947, 90793836, 91003208, 91213062, 91423400, 91634223, 91845532, 92057328, 92269613, 92482388, 92695653, 92909410, 93123660, 93338403, 93553642, 93769378, 93985611, 94202342, 94419574, 94637306, 94855540, 95074278, 95293520, 95513267, 95733522, 95954284, 96175555, 96397337, 96619630, 96842435, 97065755, 97289589, 97513940, 97738808, 97964194, 98190100, 98416527, 98643477, 98870949, 99098946, 99327469, 99556519, 99786097, 100016200, 100246840, 100478010, 100709720, 100941950, 101174730, 101408040, 101641880, 101876270, 102111200, 102346670, 102582680, 102819240, 103056340, 103293990, 103532180, 103770930, 104010230, 104250070, 104490480, 104731430, 104972940, 105215010, 105457640, 105700820, 105944570, 106188880, 106433750, 106679190, 106925190, 107171760, 107418900, 107666610, 107914890, 108163740, 108413170, 108663170, 108913750, 109164910, 109416640, 109668960, 109921850, 110175330, 110429400, 110684050, 110939290, 111195120, 111451530, 111708540, 111966140, 112224340, 112483130, 112742510, 113002500, 113263080, 113524270, 113786060, 114048450, 114311440, 114575050, 114839260, 115104080, 115369510, 115635550, 115902210, 116169480, 116437370, 116705870, 116975000, 117244740, 117515110, 117786100, 118057720, 118329960, 118602830, 118876330, 119150460, 119425220, 119700610, 119976640, 120253310, 120530620, 120808560, 121087150, 121366370, 121646250, 121926760, 122207930, 122489740, 122772200, 123055320, 123339080, 123623500, 123908580, 124194310, 124480710, 124767760, 125055480, 125343860]
def f2 : List Nat := [125632900, 125922610, 126212990, 126504040, 126795760, 127088150, 127381210, 127674960, 127969380, 128264470, 128560250, 128856710, 129153860, 129451690, 129750200, 130049410, 130349300, 130649890, 130951170, 131253140, 131555820, 131859180, 132163250, 132468020, 132773490, 133079670, 133386550, 133694140, 134002440, 134311450, 134621180, 134931620, 135242770, 135554640, 135867230, 136180540, 136494570, 136809330, 137124810, 137441030, 137757970, 138075640, 138394040, 138713180, 139033050, 139353660, 139675010, 139997100, 140319940, 140643520, 140967840, 141292920, 141618740, 141945310, 142272640, 142600720, 142929560, 143259160, 143589510, 143920630, 144252510, 144585160, 144918580, 145252760, 145587710, 145923440, 146259940, 146597220, 146935270, 147274100, 147613720, 147954120, 148295300, 148637270, 148980030, 149323580, 149667920, 150013060, 150358990, 150705720, 151053240, 151401570, 151750710, 152100650, 152451390, 152802950, 153155310, 153508490, 153862480, 154217290, 154572910, 154929360, 155286630, 155644720, 156003640, 156363380, 156723960, 157085370, 157447610, 157810680, 158174590, 158539350, 158904940, 159271370, 159638660, 160006780, 160375760, 160745590, 161116270, 161487800, 161860200, 162233450, 162607560, 162982530, 163358370, 163735080, 164112650, 164491100, 164870410, 165250610, 165631680, 166013620, 166396450, 166780160, 167164760, 167550240, 167936620, 168323880, 168712030, 169101090, 169491030, 169881880, 170273630, 170666280, 171059840, 171454310, 171849680, 172245970, 172643170, 173041280, 173440320, 173840270, 174241150, 174642950, 175045680, 175449340, 175853920, 176259450, 176665900, 177073290, 177481630, 177890900, 178301120, 178712280, 179124390, 179537460, 179951470, 180366440, 180782370, 181199250, 181617100, 182035910, 182455690, 182876430, 183298140, 183720830, 184144490, 184569130, 184994750, 185421350, 185848930, 186277500, 186707060, 187137610, 187569150, 188001680, 188435220, 188869750, 189305280, 189741820, 190179370, 190617920, 191057490, 191498070, 191939670, 192382280, 192825920, 193270570, 193716260, 194162970, 194610710, 195059480, 195509290, 195960140, 196412020, 196864950, 197318920, 197773940, 198230010, 198687130]
def f3 : List Nat := [199145300, 199604540, 200064820, 200526180, 200988590, 201452070, 201916620, 202382240, 202848940, 203316710, 203785560, 204255490, 204726500, 205198610, 205671800, 206146080, 206621450, 207097920, 207575490, 208054160, 208533940, 209014820, 209496810, 209979910, 210464120, 210949450, 211435910, 211923480, 212412180, 212902000, 213392950, 213885040, 214378260, 214872620, 215368120, 215864760, 216362540, 216861480, 217361560, 217862800, 218365190, 218868740, 219373460, 219879330, 220386380, 220894590, 221403970, 221914530, 222426270, 222939190, 223453280, 223968570, 224485040, 225002710, 225521570, 226041620, 226562870, 227085330, 227608990, 228133860, 228659940, 229187230, 229715740, 230245460, 230776410, 231308580, 231841980, 232376610, 232912470, 233449570, 233987910, 234527480, 235068310, 235610380, 236153700, 236698270, 237244100, 237791180, 238339530, 238889140, 239440020, 239992170, 240545600, 241100300, 241656280, 242213540, 242772080, 243331920, 243893040, 244455460, 245019180, 245584200, 246150510, 246718140, 247287070, 247857320, 248428880, 249001760, 249575960, 250151480, 250728330, 251306520, 251886030, 252466880, 253049070, 253632610, 254217480, 254803710, 255391290, 255980230, 256570520, 257162170, 257755190, 258349570, 258945330, 259542460, 260140970, 260740850, 261342120, 261944780, 262548830, 263154270, 263761100, 264369340, 264978980, 265590020, 266202470, 266816340, 267431620, 268048320, 268666440, 269285990, 269906960, 270529370, 271153210, 271778490, 272405220, 273033380, 273663000, 274294070, 274926590, 275560580, 276196020, 276832930, 277471310, 278111160, 278752490, 279395290, 280039580, 280685360, 281332620, 281981370, 282631620, 283283380, 283936630, 284591390, 285247660, 285905440, 286564740, 287225560, 287887910, 288551780, 289217180, 289884120, 290552590, 291222610, 291894170, 292567280, 293241940, 293918160, 294595940, 295275280, 295956190, 296638660, 297322720, 298008340, 298695550, 299384350, 300074730, 300766700, 301460280, 302155440, 302852220, 303550600, 304250590, 304952190, 305655410, 306360260, 307066730, 307774820, 308484560, 309195920, 309908930, 310623580, 311339880, 312057840, 312777440, 313498710, 314221640, 314946240]
def f4 : List Nat := [315672510, 316400450, 317130070, 317861380, 318594370, 319329050, 320065420, 320803500, 321543270, 322284750, 323027940, 323772850, 324519470, 325267820, 326017890, 326769690, 327523220, 328278490, 329035500, 329794260, 330554770, 331317030, 332081050, 332846830, 333614380, 334383700, 335154790, 335927660, 336702310, 337478750, 338256980, 339037000, 339818820, 340602450, 341387880, 342175120, 342964180, 343755060, 344547760, 345342290, 346138650, 346936850, 347736890, 348538770, 349342510, 350148090, 350955540, 351764840, 352576020, 353389060, 354203980, 355020770, 355839450, 356660020, 357482480, 358306840, 359133100, 359961260, 360791340, 361623320, 362457230, 363293060, 364130820, 364970500, 365812130, 366655690, 367501200, 368348670, 369198080, 370049450, 370902790, 371758100, 372615370, 373474630, 374335860, 375199080, 376064290, 376931500, 377800710, 378671920, 379545140, 380420370, 381297630, 382176900, 383058210, 383941540, 384826910, 385714330, 386603790, 387495300, 388388860, 389284490, 390182190, 391081950, 391983790, 392887700, 393793710, 394701800, 395611980, 396524270, 397438650, 398355150, 399273760, 400194490, 401117340, 402042320, 402969430, 403898680, 404830080, 405763620, 406699310, 407637160, 408577180, 409519360, 410463720, 411410250, 412358960, 413309870, 414262960, 415218260, 416175750, 417135460, 418097370, 419061510, 420027870, 420996460, 421967280, 422940340, 423915640, 424893190, 425873000, 426855070, 427839400, 428826000, 429814880, 430806030, 431799470, 432795210, 433793240, 434793570, 435796200, 436801150, 437808420, 438818010, 439829930, 440844180, 441860770, 442879700, 443900990, 444924630, 445950620, 446978990, 448009730, 449042840, 450078340, 451116220, 452156500, 453199180, 454244260, 455291750, 456341650, 457393980, 458448730, 459505920, 460565540, 461627610, 462692130, 463759100, 464828530, 465900430, 466974800, 468051650, 469130980, 470212800, 471297110, 472383930, 473473250, 474565080, 475659430, 476756310, 477855710, 478957650, 480062130, 481169160, 482278740, 483390870, 484505580, 485622850, 486742700, 487865130, 488990150, 490117770, 491247980, 492380810, 493516240, 494654290, 495794970, 496938280, 498084220, 499232800]
def f5 : List Nat := [500384040, 501537930, 502694480, 503853700, 505015590, 506180160, 507347410, 508517360, 509690000, 510865350, 512043410, 513224190, 514407690, 515593920, 516782880, 517974580, 519169040, 520366250, 521566210, 522768950, 523974460, 525182750, 526393820, 527607690, 528824360, 530043830, 531266120, 532491220, 533719150, 534949910, 536183510, 537419950, 538659250, 539901400, 541146420, 542394300, 543645070, 544898720, 546155260, 547414700, 548677040, 549942290, 551210460, 552481560, 553755590, 555032550, 556312460, 557595320, 558881140, 560169920, 561461680, 562756420, 564054140, 565354850, 566658560, 567965280, 569275010, 570587770, 571903550, 573222360, 574544210, 575869120, 577197080, 578528100, 579862190, 581199350, 582539600, 583882940, 585229380, 586578930, 587931580, 589287360, 590646260, 592008290, 593373470, 594741790, 596113270, 597487910, 598865720, 600246710, 601630890, 603018250, 604408820, 605802590, 607199570, 608599780, 610003220, 611409890, 612819800, 614232970, 615649400, 617069090, 618492060, 619918300, 621347840, 622780670, 624216810, 625656260, 627099030, 628545120, 629994550, 631447320, 632903450, 634362930, 635825770, 637291990, 638761590, 640234580, 641710970, 643190760, 644673960, 646160580, 647650630, 649144120, 650641050, 652141440, 653645280, 655152590, 656663380, 658177650, 659695410, 661216670, 662741440, 664269730, 665801540, 667336880, 668875770, 670418200, 671964190, 673513740, 675066870, 676623580, 678183880, 679747780, 681315280, 682886400, 684461140, 686039510, 687621530, 689207190, 690796500, 692389490, 693986140, 695586480, 697190510, 698798230, 700409670, 702024820, 703643690, 705266300, 706892650, 708522750, 710156610, 711794230, 713435640, 715080830, 716729810, 718382590, 720039190, 721699600, 723363850, 725031930, 726703860, 728379640, 730059290, 731742820, 733430220, 735121520, 736816710, 738515820, 740218840, 741925790, 743636680, 745351510, 747070290, 748793040, 750519770, 752250470, 753985170, 755723860, 757466570, 759213290, 760964040, 762718830, 764477670, 766240560, 768007510, 769778550, 771553660, 773332870, 775116180, 776903610, 778695150, 780490830, 782290650, 784094610, 785902740, 787715040, 789531520, 791352180]
def f6 : List Nat := [793177050, 795006120, 796839410, 798676930, 800518680, 802364680, 804214940, 806069470, 807928270, 809791360, 811658740, 813530440, 815406440, 817286780, 819171450, 821060460, 822953830, 824851570, 826753690, 828660190, 830571080, 832486390, 834406110, 836330250, 838258840, 840191870, 842129360, 844071310, 846017750, 847968670, 849924090, 851884030, 853848480, 855817460, 857790980, 859769050, 861751690, 863738890, 865730680, 867727060, 869728050, 871733650, 873743870, 875758730, 877778240, 879802400, 881831230, 883864740, 885902940, 887945840, 889993450, 892045780, 894102850, 896164650, 898231220, 900302540, 902378650, 904459540, 906545230, 908635730, 910731050, 912831200, 914936200, 917046050, 919160770, 921280360, 923404840, 925534220, 927668500, 929807710, 931951860, 934100950, 936254990, 938414000, 940577990, 942746970, 944920950, 947099950, 949283970, 951473020, 953667130, 955866290, 958070530, 960279840, 962494260, 964713780, 966938410, 969168180, 971403090, 973643150, 975888380, 978138790, 980394380, 982655180, 984921190, 987192430, 989468900, 991750620, 994037610, 996329870, 998627410, 1000930300, 1003238400, 1005551900, 1007870700, 1010194800, 1012524400, 1014859300, 1017199500, 1019545200, 1021896300, 1024252800, 1026614700, 1028982100, 1031354900, 1033733200, 1036117000, 1038506300, 1040901100, 1043301500, 1045707300, 1048118700, 1050535700, 1052958200, 1055386400, 1057820100, 1060259400, 1062704400, 1065155000, 1067611300, 1070073200, 1072540800, 1075014100, 1077493100, 1079977800, 1082468200, 1084964400, 1087466300, 1089974000, 1092487500, 1095006800, 1097531900, 1100062800, 1102599600, 1105142200, 1107690600, 1110245000, 1112805200, 1115371400, 1117943400, 1120521400, 1123105300, 1125695200, 1128291100, 1130892900, 1133500800, 1136114600, 1138734500, 1141360500, 1143992400, 1146630500, 1149274600, 1151924900, 1154581200, 1157243700, 1159912300, 1162587100, 1165268000, 1167955100, 1170648400, 1173348000, 1176053700, 1178765700, 1181483900, 1184208500, 1186939200, 1189676300, 1192419700, 1195169500, 1197925500, 1200688000, 1203456800, 1206231900, 1209013500, 1211801500, 1214595900, 1217396800, 1220204100, 1223017900, 1225838200, 1228665000, 1231498300, 1234338200, 1237184600, 1240037500, 1242897100, 1245763200, 1248635900, 1251515300, 1254401300]
def f7 : List Nat := [1257294000, 1260193300, 1263099300, 1266012000, 1268931400, 1271857600, 1274790500, 1277730200, 1280676700, 1283629900, 1286590000, 1289556900, 1292530600, 1295511200, 1298498600, 1301493000, 1304494200, 1307502400, 1310517500, 1313539600, 1316568600, 1319604600, 1322647600, 1325697700, 1328754700, 1331818900, 1334890100, 1337968300, 1341053700, 1344146200, 1347245800, 1350352500, 1353466500, 1356587600, 1359715900, 1362851400, 1365994100, 1369144100, 1372301400, 1375465900, 1378637700, 1381816900, 1385003400, 1388197200, 1391398400, 1394607000, 1397822900, 1401046300, 1404277200, 1407515400, 1410761200, 1414014400, 1417275100, 1420543400, 1423819200, 1427102500, 1430393400, 1433691900, 1436998000, 1440311700, 1443633100, 1446962100, 1450298800, 1453643200, 1456995400, 1460355200, 1463722800, 1467098100, 1470481300, 1473872200, 1477271000, 1480677600, 1484092000, 1487514400, 1490944600, 1494382700, 1497828800, 1501282800, 1504744700, 1508214700, 1511692700, 1515178600, 1518672600, 1522174700, 1525684900, 1529203100, 1532729500, 1536263900, 1539806600, 1543357400, 1546916400, 1550483600, 1554059000, 1557642700, 1561234600, 1564834800, 1568443400, 1572060200, 1575685400, 1579318900, 1582960800, 1586611200, 1590269900, 1593937100, 1597612700, 1601296800, 1604989400, 1608690500, 1612400200, 1616118400, 1619845200, 1623580500, 1627324500, 1631077200, 1634838400, 1638608400, 1642387000, 1646174400, 1649970500, 1653775300, 1657588900, 1661411400, 1665242600, 1669082600, 1672931600, 1676789400, 1680656000, 1684531600, 1688416200, 1692309700, 1696212200, 1700123600, 1704044100, 1707973700, 1711912300, 1715860000, 1719816800, 1723782700, 1727757700, 1731741900, 1735735400, 1739738000, 1743749800, 1747770900, 1751801300, 1755841000, 1759889900, 1763948300, 1768015900, 1772093000, 1776179500, 1780275300, 1784380700, 1788495500, 1792619800, 1796753500, 1800896900, 1805049800, 1809212200, 1813384300, 1817565900, 1821757300, 1825958300, 1830168900, 1834389300, 1838619400, 1842859300, 1847108900, 1851368400, 1855637700, 1859916800, 1864205800, 1868504600, 1872813400, 1877132100, 1881460800, 1885799500, 1890148200, 1894506800, 1898875600, 1903254400, 1907643300, 1912042400, 1916451600, 1920870900, 1925300500, 1929740200, 1934190200, 1938650500, 1943121000, 1947601900, 1952093000, 1956594600, 1961106500, 1965628800, 1970161600, 1974704800, 1979258500, 1983822700, 1988397400]
def f8 : List Nat := [1992982600, 1997578500, 2002184900, 2006802000, 2011429700, 2016068000, 2020717100, 2025376900, 2030047400, 2034728700, 2039420800, 2044123700, 2048837500, 2053562100, 2058297700, 2063044100, 2067801500, 2072569900, 2077349200, 2082139600, 2086941100, 2091753600, 2096577200, 2101411900, 2106257800, 2111114800, 2115983100, 2120862500, 2125753300, 2130655300, 2135568600, 2140493200, 2145429200, 2150376600, 2155335400, 2160305600, 2165287300, 2170280400, 2175285100, 2180301300, 2185329100, 2190368500, 2195419500, 2200482200, 2205556500, 2210642500, 2215740300, 2220849800, 2225971100, 2231104200, 2236249100, 2241406000, 2246574700, 2251755300, 2256947800, 2262152400, 2267368900, 2272597500, 2277838100, 2283090800, 2288355600, 2293632600, 2298921700, 2304223100, 2309536600, 2314862400, 2320200500, 2325550900, 2330913700, 2336288800, 2341676300, 2347076200, 2352488600, 2357913400, 2363350800, 2368800700, 2374263200, 2379738200, 2385225900, 2390726300, 2396239300, 2401765100, 2407303600, 2412854800, 2418418900, 2423995800, 2429585500, 2435188200, 2440803700, 2446432200, 2452073700, 2457728200, 2463395800, 2469076400, 2474770100, 2480476900, 2486196900, 2491930100, 2497676500, 2503436200, 2509209100, 2514995400, 2520795000, 2526608000, 2532434300, 2538274200, 2544127400, 2549994200, 2555874500, 2561768400, 2567675800, 2573596900, 2579531700, 2585480100, 2591442200, 2597418100, 2603407800, 2609411200, 2615428600, 2621459800, 2627504900, 2633563900, 2639636900, 2645724000, 2651825000, 2657940100, 2664069400, 2670212700, 2676370300, 2682542000, 2688728000, 2694928200, 2701142700, 2707371600, 2713614800, 2719872400, 2726144400, 2732431000, 2738732000, 2745047500, 2751377600, 2757722300, 2764081600, 2770455600, 2776844300, 2783247700, 2789665900, 2796098900, 2802546700, 2809009400, 2815487000, 2821979600, 2828487100, 2835009600, 2841547100, 2848099800, 2854667500, 2861250400, 2867848500, 2874461700, 2881090300, 2887734100, 2894393200, 2901067700, 2907757600, 2914462900, 2921183700, 2927920000, 2934671800, 2941439100, 2948222100, 2955020700, 2961835000, 2968665100, 2975510800, 2982372400, 2989249800, 2996143000, 3003052100, 3009977200, 3016918200, 3023875200, 3030848300, 3037837500, 3044842800, 3051864200, 3058901800, 3065955700, 3073025800, 3080112200, 3087215000, 3094334100, 3101469700, 3108621700, 3115790200, 3122975200, 3130176800, 3137395000, 3144629900, 3151881400]
def f9 : List Nat := [3159149700, 3166434700, 3173736500, 3181055200, 3188390700, 3195743200, 3203112600, 3210499000, 3217902400, 3225322900, 3232760600, 3240215300, 3247687300, 3255176500, 3262682900, 3270206700, 3277747800, 3285306300, 3292882300, 3300475700, 3308086600, 3315715100, 3323361200, 3331024900, 3338706200, 3346405300, 3354122100, 3361856800, 3369609200, 3377379600, 3385167900, 3392974100, 3400798300, 3408640600, 3416500900, 3424379400, 3432276000, 3440190900, 3448124000, 3456075400, 3464045100, 3472033300, 3480039800, 3488064800, 3496108300, 3504170300, 3512251000, 3520350300, 3528468200, 3536604900, 3544760300, 3552934600, 3561127700, 3569339700, 3577570600, 3585820500, 3594089400, 3602377400, 3610684500, 3619010800, 3627356300, 3635721000, 3644105000, 3652508300, 3660931000, 3669373100, 3677834700, 3686315900, 3694816500, 3703336800, 3711876700, 3720436400, 3729015700, 3737614800, 3746233800, 3754872700, 3763531400, 3772210200, 3780908900, 3789627700, 3798366600, 3807125700, 3815904900, 3824704400, 3833524200, 3842364400, 3851224900, 3860105900, 3869007300, 3877929200, 3886871800, 3895834900, 3904818800, 3913823300, 3922848600, 3931894700, 3940961700, 3950049600, 3959158400, 3968288300, 3977439200, 3986611200, 3995804400, 4005018700, 4014254300, 4023511200, 4032789500, 4042089100, 4051410200, 4060752800, 4070116900, 4079502600, 4088910000, 4098339000, 4107789800, 4117262400, 4126756900, 4136273200, 4145811500, 4155371800, 4164954100, 4174558500, 4184185100, 4193833800, 4203504800, 4213198200, 4222913800, 4232651900, 4242412400, 4252195500, 4262001000, 4271829300, 4281680100, 4291553700, 4301450100, 4311369200, 4321311300, 4331276300, 4341264200, 4351275200, 4361309300, 4371366500, 4381446900, 4391550600, 4401677500, 4411827800, 4422001500, 4432198700, 4442419400, 4452663600, 4462931500, 4473223100, 4483538300, 4493877400, 4504240300, 4514627100, 4525037900, 4535472700, 4545931500, 4556414500, 4566921600, 4577452900, 4588008600, 4598588600, 4609193000, 4619821800, 4630475100, 4641153000, 4651855600, 4662582800, 4673334700, 4684111500, 4694913100, 4705739600, 4716591100, 4727467600, 4738369100, 4749295800, 4760247800, 4771224900, 4782227400, 4793255300, 4804308500, 4815387300, 4826491600, 4837621600, 4848777200, 4859958500, 4871165600, 4882398500, 4893657400, 4904942200, 4916253000, 4927589900, 4938953000, 4950342300, 4961757800, 4973199600, 4984667900, 4996162600]
def f10 : List Nat := [5007683700, 5019231500, 5030805900, 5042407000, 5054034800, 5065689400, 5077371000, 5089079400, 5100814900, 5112577400, 5124367000, 5136183900, 5148027900, 5159899300, 5171798100, 5183724300, 5195678000, 5207659300, 5219668200, 5231704800, 5243769100, 5255861300, 5267981400, 5280129400, 5292305400, 5304509500, 5316741700, 5329002200, 5341290900, 5353607900, 5365953400, 5378327300, 5390729800, 5403160900, 5415620600, 5428109000, 5440626300, 5453172400, 5465747500, 5478351500, 5490984700, 5503646900, 5516338400, 5529059100, 5541809100, 5554588600, 5567397500, 5580236000, 5593104000, 5606001800, 5618929300, 5631886600, 5644873700, 5657890900, 5670938000, 5684015200, 5697122600, 5710260200, 5723428100, 5736626400, 5749855100, 5763114300, 5776404100, 5789724500, 5803075700, 5816457600, 5829870400, 5843314100, 5856788900, 5870294700, 5883831600, 5897399800, 5910999200, 5924630000, 5938292300, 5951986000, 5965711300, 5979468300, 5993257000, 6007077500, 6020929900, 6034814200, 6048730500, 6062678900, 6076659500, 6090672300, 6104717500, 6118795000, 6132905000, 6147047500, 6161222600, 6175430500, 6189671100, 6203944500, 6218250800, 6232590200, 6246962600, 6261368100, 6275806900, 6290278900, 6304784400, 6319323200, 6333895700, 6348501700, 6363141400, 6377814800, 6392522100, 6407263300, 6422038500, 6436847800, 6451691200, 6466568800, 6481480800, 6496427100, 6511408000, 6526423300, 6541473300, 6556558000, 6571677500, 6586831800, 6602021100, 6617245400, 6632504800, 6647799400, 6663129300, 6678494500, 6693895200, 6709331400, 6724803100, 6740310600, 6755853800, 6771432800, 6787047800, 6802698800, 6818385900, 6834109100, 6849868600, 6865664500, 6881496700, 6897365500, 6913270900, 6929213000, 6945191800, 6961207400, 6977260000, 6993349700, 7009476400, 7025640300, 7041841500, 7058080000, 7074356000, 7090669500, 7107020600, 7123409500, 7139836100, 7156300600, 7172803100, 7189343700, 7205922300, 7222539300, 7239194500, 7255888100, 7272620300, 7289391000, 7306200400, 7323048500, 7339935500, 7356861500, 7373826500, 7390830600, 7407873900, 7424956500, 7442078500, 7459240000, 7476441000, 7493681800, 7510962300, 7528282600, 7545642900, 7563043200, 7580483600, 7597964300, 7615485200, 7633046600, 7650648500, 7668290900, 7685974100, 7703698000, 7721462800, 7739268500, 7757115300, 7775003300, 7792932500, 7810903100, 7828915100, 7846968600, 7865063800, 7883200700, 7901379400, 7919600000]
def f11 : List Nat := [7937862700, 7956167500, 7974514400, 7992903700, 8011335400, 8029809600, 8048326400, 8066885900, 8085488200, 8104133400, 8122821600, 8141552900, 8160327400, 8179145200, 8198006400, 8216911000, 8235859300, 8254851200, 8273887000, 8292966600, 8312090300, 8331258000, 8350470000, 8369726200, 8389026900, 8408372000, 8427761800, 8447196300, 8466675600, 8486199800, 8505769000, 8525383400, 8545043000, 8564747900, 8584498300, 8604294200, 8624135800, 8644023100, 8663956300, 8683935400, 8703960700, 8724032100, 8744149800, 8764313800, 8784524400, 8804781600, 8825085500, 8845436200, 8865833800, 8886278500, 8906770300, 8927309400, 8947895900, 8968529800, 8989211300, 9009940500, 9030717500, 9051542400, 9072415300, 9093336400, 9114305700, 9135323300, 9156389400, 9177504100, 9198667500, 9219879700, 9241140800, 9262451000, 9283810300, 9305218800, 9326676700, 9348184100, 9369741100, 9391347800, 9413004300, 9434710800, 9456467300, 9478274000, 9500130900, 9522038300, 9543996200, 9566004700, 9588064000, 9610174200, 9632335300, 9654547500, 9676811000, 9699125800, 9721492000, 9743909900, 9766379400, 9788900800, 9811474000, 9834099400, 9856776900, 9879506700, 9902288900, 9925123700, 9948011100, 9970951300, 9993944300, 10016990000, 10040090000, 10063242000, 10086448000, 10109708000, 10133021000, 10156387000, 10179808000, 10203283000, 10226812000, 10250395000, 10274032000, 10297724000, 10321471000, 10345272000, 10369129000, 10393040000, 10417006000, 10441028000, 10465105000, 10489238000, 10513426000, 10537670000, 10561970000, 10586326000, 10610738000, 10635207000, 10659731000, 10684313000, 10708951000, 10733646000, 10758398000, 10783207000, 10808073000, 10832996000, 10857977000, 10883016000, 10908112000, 10933266000, 10958479000, 10983749000, 11009078000, 11034465000, 11059910000, 11085414000, 11110977000, 11136599000, 11162281000, 11188021000, 11213820000, 11239680000, 11265598000, 11291577000, 11317615000, 11343714000, 11369873000, 11396092000, 11422371000, 11448711000, 11475112000, 11501574000, 11528096000, 11554680000, 11581325000, 11608032000, 11634800000, 11661630000, 11688522000, 11715476000, 11742492000, 11769570000, 11796711000, 11823914000, 11851180000, 11878509000, 11905901000, 11933356000, 11960875000, 11988456000, 12016102000, 12043811000, 12071584000, 12099421000, 12127323000, 12155288000, 12183319000, 12211413000, 12239573000, 12267798000, 12296087000, 12324442000, 12352862000, 12381348000, 12409900000, 12438517000, 12467200000, 12495950000, 12524766000, 12553648000]
def f12 : List Nat := [12582597000, 12611612000, 12640695000, 12669844000, 12699061000, 12728345000, 12757697000, 12787116000, 12816603000, 12846158000, 12875782000, 12905473000, 12935233000, 12965062000, 12994960000, 13024926000, 13054962000, 13085067000, 13115241000, 13145485000, 13175798000, 13206182000, 13236635000, 13267159000, 13297753000, 13328418000, 13359154000, 13389960000, 13420837000, 13451786000, 13482806000, 13513897000, 13545060000, 13576295000, 13607602000, 13638982000, 13670433000, 13701957000, 13733554000, 13765224000, 13796966000, 13828782000, 13860672000, 13892634000, 13924671000, 13956781000, 13988966000, 14021224000, 14053558000, 14085965000, 14118448000, 14151005000, 14183637000, 14216345000, 14249128000, 14281986000, 14314921000, 14347931000, 14381017000, 14414180000, 14447419000, 14480735000, 14514128000, 14547598000, 14581144000, 14614769000, 14648470000, 14682250000, 14716107000, 14750043000, 14784056000, 14818149000, 14852319000, 14886569000, 14920897000, 14955305000, 14989792000, 15024359000, 15059005000, 15093731000, 15128538000, 15163424000, 15198391000, 15233439000, 15268567000, 15303776000, 15339067000, 15374439000, 15409893000, 15445428000, 15481045000, 15516745000, 15552526000, 15588391000, 15624338000, 15660367000, 15696480000, 15732677000, 15768956000, 15805320000, 15841767000, 15878298000, 15914913000, 15951613000, 15988398000, 16025267000, 16062222000, 16099261000, 16136386000, 16173597000, 16210893000, 16248276000, 16285744000, 16323300000, 16360941000, 16398670000, 16436485000, 16474388000, 16512378000, 16550456000, 16588621000, 16626874000, 16665216000, 16703646000, 16742165000, 16780773000, 16819469000, 16858255000, 16897130000, 16936095000, 16975150000, 17014295000, 17053530000, 17092855000, 17132272000, 17171779000, 17211377000, 17251067000, 17290848000, 17330721000, 17370685000, 17410742000, 17450892000, 17491133000, 17531468000, 17571896000, 17612417000, 17653031000, 17693739000, 17734541000, 17775437000, 17816427000, 17857512000, 17898692000, 17939966000, 17981336000, 18022801000, 18064362000, 18106018000, 18147771000, 18189620000, 18231565000, 18273607000, 18315746000, 18357983000, 18400316000, 18442748000, 18485277000, 18527904000, 18570629000, 18613453000, 18656376000, 18699398000, 18742519000, 18785739000, 18829059000, 18872479000, 18915999000, 18959620000, 19003341000, 19047163000, 19091086000, 19135110000, 19179235000, 19223463000, 19267792000, 19312224000, 19356758000, 19401395000, 19446135000, 19490978000, 19535924000, 19580974000, 19626128000, 19671386000, 19716748000, 19762215000, 19807787000, 19853464000, 19899246000]
def f13 : List Nat := [19945134000, 19991128000, 20037227000, 20083433000, 20129746000, 20176165000, 20222692000, 20269325000, 20316067000, 20362916000, 20409873000, 20456938000, 20504112000, 20551394000, 20598786000, 20646287000, 20693898000, 20741618000, 20789448000, 20837389000, 20885440000, 20933602000, 20981875000, 21030259000, 21078755000, 21127363000, 21176083000, 21224915000, 21273860000, 21322918000, 21372088000, 21421373000, 21470771000, 21520282000, 21569908000, 21619649000, 21669504000, 21719474000, 21769559000, 21819760000, 21870076000, 21920509000, 21971058000, 22021723000, 22072505000, 22123405000, 22174421000, 22225556000, 22276808000, 22328179000, 22379668000, 22431275000, 22483002000, 22534848000, 22586814000, 22638899000, 22691104000, 22743430000, 22795877000, 22848444000, 22901133000, 22953943000, 23006875000, 23059929000, 23113105000, 23166404000, 23219826000, 23273371000, 23327040000, 23380832000, 23434749000, 23488789000, 23542955000, 23597245000, 23651660000, 23706201000, 23760868000, 23815661000, 23870580000, 23925626000, 23980798000, 24036098000, 24091526000, 24147081000, 24202764000, 24258576000, 24314516000, 24370586000, 24426785000, 24483113000, 24539571000, 24596160000, 24652879000, 24709728000, 24766709000, 24823821000, 24881065000, 24938441000, 24995949000, 25053590000, 25111364000, 25169271000, 25227312000, 25285486000, 25343794000, 25402237000, 25460815000, 25519528000, 25578376000, 25637360000, 25696480000, 25755736000, 25815129000, 25874659000, 25934326000, 25994131000, 26054074000, 26114155000, 26174374000, 26234732000, 26295230000, 26355867000, 26416644000, 26477561000, 26538618000, 26599816000, 26661156000, 26722637000, 26784259000, 26846024000, 26907931000, 26969981000, 27032174000, 27094510000, 27156991000, 27219615000, 27282383000, 27345297000, 27408355000, 27471559000, 27534909000, 27598405000, 27662047000, 27725836000, 27789772000, 27853855000, 27918086000, 27982465000, 28046993000, 28111670000, 28176496000, 28241471000, 28306596000, 28371871000, 28437297000, 28502873000, 28568601000, 28634481000, 28700512000, 28766696000, 28833032000, 28899521000, 28966164000, 29032960000, 29099910000, 29167015000, 29234274000, 29301688000, 29369258000, 29436984000, 29504866000, 29572904000, 29641100000, 29709452000, 29777963000, 29846631000, 29915457000, 29984443000, 30053587000, 30122891000, 30192354000, 30261978000, 30331763000, 30401708000, 30471814000, 30542083000, 30612513000, 30683106000, 30753861000, 30824780000, 30895862000, 30967108000, 31038518000, 31110093000, 31181833000, 31253739000, 31325810000, 31398048000, 31470452000, 31543023000]
def f14 : List Nat := [31615762000, 31688668000, 31761742000, 31834985000, 31908397000, 31981978000, 32055728000, 32129649000, 32203740000, 32278002000, 32352436000, 32427041000, 32501818000, 32576767000, 32651889000, 32727185000, 32802654000, 32878297000, 32954115000, 33030107000, 33106275000, 33182618000, 33259138000, 33335833000, 33412706000, 33489756000, 33566984000, 33644389000, 33721974000, 33799737000, 33877679000, 33955801000, 34034104000, 34112587000, 34191251000, 34270096000, 34349123000, 34428332000, 34507724000, 34587299000, 34667058000, 34747000000, 34827127000, 34907439000, 34987936000, 35068618000, 35149487000, 35230542000, 35311784000, 35393213000, 35474830000, 35556635000, 35638629000, 35720812000, 35803184000, 35885747000, 35968500000, 36051443000, 36134578000, 36217905000, 36301424000, 36385135000, 36469039000, 36553137000, 36637429000, 36721915000, 36806596000, 36891472000, 36976544000, 37061813000, 37147277000, 37232939000, 37318799000, 37404856000, 37491112000, 37577567000, 37664221000, 37751075000, 37838129000, 37925384000, 38012841000, 38100498000, 38188359000, 38276421000, 38364687000, 38453156000, 38541829000, 38630707000, 38719790000, 38809078000, 38898572000, 38988272000, 39078180000, 39168294000, 39258617000, 39349147000, 39439887000, 39530835000, 39621994000, 39713362000, 39804942000, 39896732000, 39988734000, 40080949000, 40173376000, 40266016000, 40358870000, 40451937000, 40545220000, 40638718000, 40732431000, 40826360000, 40920506000, 41014869000, 41109450000, 41204248000, 41299266000, 41394502000, 41489958000, 41585634000, 41681531000, 41777649000, 41873988000, 41970550000, 42067335000, 42164342000, 42261574000, 42359029000, 42456709000, 42554615000, 42652746000, 42751104000, 42849688000, 42948500000, 43047539000, 43146807000, 43246304000, 43346030000, 43445987000, 43546173000, 43646591000, 43747241000, 43848122000, 43949236000, 44050583000, 44152164000, 44253980000, 44356030000, 44458315000, 44560836000, 44663594000, 44766588000, 44869821000, 44973291000, 45076999000, 45180947000, 45285135000, 45389563000, 45494231000, 45599142000, 45704294000, 45809688000, 45915325000, 46021207000, 46127332000, 46233702000, 46340317000, 46447178000, 46554286000, 46661640000, 46769242000, 46877093000, 46985192000, 47093540000, 47202138000, 47310986000, 47420086000, 47529437000, 47639040000, 47748896000, 47859005000, 47969369000, 48079986000, 48190859000, 48301988000, 48413372000, 48525014000, 48636913000, 48749070000, 48861486000, 48974161000, 49087096000, 49200291000, 49313747000, 49427465000, 49541445000, 49655688000, 49770194000, 49884965000, 50000000000]
/-- frequency column -/
def freqs : List Nat := f0 ++ (f1 ++ (f2 ++ (f3 ++ (f4 ++ (f5 ++ (f6 ++ (f7 ++ (f8 ++ (f9 ++ (f10 ++ (f11 ++ (f12 ++ (f13 ++ (f14))))))))))))))
/-- number of leading rows whose value is `inf` -/
def ninf : Nat := 0
def s0 : List Nat := [11679839000, 11355242000, 11040671000, 10735774000, 10440210000, 10153656000, 9875798800, 9606340600, 9344993600, 9091481900, 8845540400, 8606914400, 8375359200, 8150639300, 7932528300, 7720808500, 7515270300, 7315712200, 7121939800, 6933766300, 6751011600, 6573502300, 6401071300, 6233557400, 6070805400, 5912665500, 5758993500, 5609650000, 5464500600, 5323415800, 5186270300, 5052943400, 4923318400, 4797282700, 4674727600, 4555547800, 4439642000, 4326912000, 4217262900, 4110603100, 4006843900, 3905899700, 3807687600, 3712127300, 3619141300, 3528654600, 3440594600, 3354890900, 3271475600, 3190282800, 3111248600, 3034311400, 2959411400, 2886490500, 2815492800, 2746363800, 2679050900, 2613502900, 2549670500, 2487505700, 2426962000, 2367994200, 2310558800, 2254613300, 2200116600, 2147028900, 2095311500, 2044926900, 1995838600, 1948011400, 1901411000, 1856004200, 1811758600, 1768642900, 1726626700, 1685680500, 1645775600, 1606884200, 1568979200, 1532034400, 1496024200, 1460924000, 1426709500, 1393357600, 1360845400, 1329150900, 1298252600, 1268129800, 1238762100, 1210129900, 1182214100, 1154996000, 1128457600, 1102581300, 1077350000, 1052747100, 1028756500, 1005362400, 982549570, 960303160, 938608700, 917452130, 896819790, 876698360, 857074910, 837936840, 819271910, 801068180, 783314050, 765998240, 749109760, 732637900, 716572260, 700902710, 685619370, 670712650, 656173180, 641991870, 628159850, 614668480, 601509360, 588674300, 576155310, 563944640, 552034710, 540418140, 529087770, 518036580, 507257750, 496744650, 486490790, 476489870, 466735730, 457222370, 447943940, 438894760, 430069250, 421462010, 413067740, 404881300, 396897650, 389111910, 381519270, 374115090, 366894800, 359853960, 352988250, 346293420, 339765350, 333400010, 327193460, 321141860, 315241470, 309488610, 303879720, 298411280, 293079910, 287882240, 282815040, 277875120, 273059360, 268364730, 263788250, 259327020, 254978210, 250739030, 246606780, 242578800, 238652500, 234825330, 231094830, 227458560, 223914150, 220459280, 217091680, 213809140, 210609470, 207490550, 204450310, 201486720, 198597780, 195781550, 193036130, 190359650, 187750310, 185206310, 182725910, 180307430, 177949180, 175649550, 173406940, 171219800, 169086600, 167005870, 164976150, 162996020, 161064090, 159179010, 157339460, 155544150]
def s1 : List Nat := [153791820, 152081230, 150411190, 148780520, 147188080, 145632750, 144113440, 142629100, 141178680, 139761180, 138375620, 137021040, 135696500, 134401100, 133133950, 131894180, 130680970, 129493490, 128330960, 127192590, 126077630, 124985360, 123915070, 122866060, 121837660, 120829230, 119840120, 118869730, 117917450, 116982720, 116064950, 115163620, 114278180, 113408130, 112552960, 111712200, 110885370, 110072020, 109271720, 108484020, 107708530, 106944840, 106192560, 105451320, 104720760, 104000510, 103290250, 102589650, 101898380, 101216140, 100542620, 99877551, 99220643, 98571630, 97930251, 97296258, 96669405, 96049461, 95436199, 94829401, 94228857, 93634365, 93045728, 92462758, 91885274, 91313101, 90746071, 90184021, 89626795, 89074243, 88526222, 87982591, 87443219, 86907977, 86376743, 85849398, 85325830, 84805931, 84289598, 83776731, 83267236, 82761022, 82258004, 81758099, 81261229, 80767318, 80276297, 79788099, 79302658, 78819915, 78339813, 77862298, 77387319, 76914828, 76444780, 75977133, 75511849, 75048889, 74588221, 74129813, 73673635, 73219662, 72767889, 72318308, 71870895, 71425628, 70982490, 70541462, 70102529, 69665678, 69230899, 68798181, 68367517, 67938901, 67512328, 67087796, 66665302, 66244847, 65826431, 65410058, 64995730, 64583451, 64173228, 63765067, 63358975, 62954960, 62553032, 62153199, 61755473, 61359863, 60966382, 60575042, 60185853, 59798830, 59413985, 59031331, 58650881, 58272650, 57896650, 57522896, 57151401, 56782178, 56415243, 56050607, 55688284, 55328289, 54970633, 54615329, 54262390, 53911828, 53563654, 53217881, 52874519, 52533578, 52195069, 51859002, 51525385, 51194228, 50865538, 50539323, 50215591, 49894347, 49575597, 49259347, 48945601, 48634364, 48325638, 48019428, 47715734, 47414559, 47115904, 46819768, 46526152, 46235054, 45946474, 45660409, 45376855, 45095811, 44817271, 44541232, 44267687, 43996633, 43728061, 43461965, 43198338, 42937172, 42678459, 42422189, 42168353, 41916941, 41667942, 41421347, 41177143, 40935319, 40695862, 40458760, 40224001, 39991570, 39761455, 39533640]
def s2 : List Nat := [39308113, 39084858, 38863860, 38645104, 38428575, 38214256, 38002133, 37792188, 37584405, 37378769, 37175261, 36973865, 36774565, 36577342, 36382179, 36189059, 35997964, 35808877, 35621780, 35436655, 35253484, 35072249, 34892932, 34715516, 34539981, 34366311, 34194486, 34024490, 33856304, 33689909, 33525289, 33362424, 33201298, 33041893, 32884190, 32728172, 32573821, 32421120, 32270051, 32120598, 31972741, 31826466, 31681753, 31538587, 31396951, 31256827, 31118199, 30981051, 30845367, 30711129, 30578321, 30446929, 30316935, 30188325, 30061082, 29935191, 29810637, 29687404, 29565478, 29444844, 29325486, 29207390, 29090542, 28974928, 28860533, 28747343, 28635344, 28524522, 28414865, 28306358, 28198988, 28092743, 27987608, 27883571, 27780620, 27678741, 27577923, 27478153, 27379419, 27281709, 27185011, 27089313, 26994604, 26900872, 26808105, 26716294, 26625426, 26535491, 26446477, 26358375, 26271174, 26184862, 26099431, 26014869, 25931167, 25848315, 25766303, 25685122, 25604761, 25525211, 25446463, 25368509, 25291337, 25214941, 25139310, 25064437, 24990311, 24916926, 24844272, 24772341, 24701124, 24630615, 24560803, 24491683, 24423245, 24355482, 24288387, 24221952, 24156168, 24091030, 24026530, 23962660, 23899413, 23836782, 23774761, 23713343, 23652520, 23592287, 23532636, 23473561, 23415055, 23357113, 23299727, 23242892, 23186601, 23130849, 23075630, 23020936, 22966764, 22913106, 22859958, 22807313, 22755166, 22703511, 22652344, 22601658, 22551448, 22501710, 22452437, 22403625, 22355268, 22307363, 22259903, 22212884, 22166301, 22120149, 22074424, 22029120, 21984234, 21939761, 21895695, 21852034, 21808772, 21765905, 21723428, 21681339, 21639631, 21598302, 21557346, 21516761, 21476542, 21436685, 21397186, 21358041, 21319247, 21280799, 21242695, 21204929, 21167500, 21130402, 21093633, 21057189, 21021067, 20985263, 20949773, 20914594, 20879724, 20845158, 20810894, 20776928, 20743257, 20709879, 20676789, 20643985, 20611463, 20579222, 20547257, 20515566, 20484147, 20452995]
def s3 : List Nat := [20422109, 20391485, 20361121, 20331015, 20301162, 20271562, 20242210, 20213105, 20184244, 20155624, 20127243, 20099098, 20071188, 20043508, 20016058, 19988835, 19961836, 19935059, 19908501, 19882161, 19856036, 19830125, 19804424, 19778931, 19753645, 19728564, 19703685, 19679006, 19654525, 19630240, 19606149, 19582251, 19558543, 19535023, 19511689, 19488540, 19465573, 19442788, 19420181, 19397751, 19375496, 19353415, 19331506, 19309767, 19288197, 19266793, 19245554, 19224478, 19203565, 19182811, 19162216, 19141778, 19121496, 19101367, 19081390, 19061565, 19041889, 19022360, 19002979, 18983742, 18964649, 18945698, 18926887, 18908216, 18889684, 18871288, 18853027, 18834900, 18816906, 18799044, 18781312, 18763708, 18746233, 18728884, 18711660, 18694560, 18677584, 18660728, 18643994, 18627379, 18610882, 18594502, 18578238, 18562090, 18546055, 18530133, 18514322, 18498622, 18483032, 18467551, 18452177, 18436910, 18421748, 18406691, 18391737, 18376887, 18362138, 18347489, 18332941, 18318492, 18304140, 18289886, 18275728, 18261665, 18247697, 18233823, 18220041, 18206352, 18192753, 18179245, 18165826, 18152496, 18139254, 18126099, 18113030, 18100047, 18087149, 18074334, 18061604, 18048955, 18036389, 18023903, 18011498, 17999173, 17986926, 17974758, 17962668, 17950655, 17938717, 17926856, 17915069, 17903357, 17891719, 17880153, 17868660, 17857239, 17845889, 17834609, 17823400, 17812260, 17801189, 17790186, 17779250, 17768382, 17757580, 17746844, 17736174, 17725569, 17715027, 17704550, 17694136, 17683785, 17673496, 17663268, 17653102, 17642997, 17632951, 17622966, 17613040, 17603172, 17593363, 17583612, 17573918, 17564281, 17554700, 17545175, 17535706, 17526292, 17516933, 17507628, 17498376, 17489178, 17480033, 17470941, 17461901, 17452912, 17443975, 17435089, 17426253, 17417467, 17408731, 17400045, 17391407, 17382819, 17374278, 17365785, 17357340, 17348942, 17340591, 17332286, 17324027, 17315814, 17307647, 17299525, 17291447, 17283414, 17275424, 17267479, 17259577, 17251718]
def s4 : List Nat := [17243902, 17236129, 17228397, 17220708, 17213060, 17205453, 17197888, 17190363, 17182878, 17175433, 17168029, 17160663, 17153338, 17146051, 17138802, 17131592, 17124421, 17117287, 17110191, 17103132, 17096110, 17089125, 17082177, 17075265, 17068389, 17061549, 17054745, 17047976, 17041242, 17034543, 17027878, 17021248, 17014652, 17008091, 17001562, 16995068, 16988606, 16982178, 16975782, 16969419, 16963089, 16956791, 16950524, 16944290, 16938087, 16931915, 16925775, 16919665, 16913586, 16907538, 16901520, 16895533, 16889575, 16883647, 16877749, 16871880, 16866040, 16860230, 16854448, 16848695, 16842970, 16837274, 16831606, 16825966, 16820354, 16814769, 16809212, 16803682, 16798180, 16792704, 16787255, 16781833, 16776438, 16771068, 16765725, 16760408, 16755117, 16749851, 16744611, 16739397, 16734207, 16729043, 16723904, 16718790, 16713700, 16708635, 16703594, 16698578, 16693586, 16688617, 16683673, 16678752, 16673855, 16668981, 16664131, 16659304, 16654500, 16649719, 16644960, 16640225, 16635512, 16630821, 16626153, 16621507, 16616883, 16612281, 16607700, 16603142, 16598605, 16594089, 16589595, 16585123, 16580671, 16576240, 16571831, 16567442, 16563074, 16558726, 16554399, 16550092, 16545806, 16541540, 16537294, 16533068, 16528861, 16524675, 16520508, 16516361, 16512233, 16508125, 16504036, 16499966, 16495915, 16491883, 16487870, 16483876, 16479901, 16475944, 16472006, 16468086, 16464185, 16460302, 16456437, 16452590, 16448762, 16444951, 16441158, 16437383, 16433625, 16429885, 16426163, 16422458, 16418771, 16415100, 16411447, 16407811, 16404193, 16400591, 16397006, 16393438, 16389886, 16386351, 16382833, 16379332, 16375846, 16372378, 16368925, 16365489, 16362069, 16358665, 16355277, 16351905, 16348549, 16345209, 16341884, 16338575, 16335282, 16332005, 16328743, 16325496, 16322265, 16319049, 16315848, 16312663, 16309492, 16306337, 16303197, 16300071, 16296961, 16293865, 16290784, 16287718, 16284667, 16281630, 16278608, 16275600, 16272606, 16269627, 16266663, 16263712]
def s5 : List Nat := [16260776, 16257854, 16254946, 16252052, 16249172, 16246306, 16243454, 16240616, 16237792, 16234981, 16232184, 16229401, 16226631, 16223875, 16221133, 16218403, 16215688, 16212985, 16210297, 16207621, 16204958, 16202309, 16199673, 16197050, 16194440, 16191843, 16189259, 16186688, 16184130, 16181585, 16179052, 16176532, 16174025, 16171531, 16169049, 16166580, 16164124, 16161680, 16159248, 16156829, 16154423, 16152028, 16149646, 16147277, 16144919, 16142574, 16140241, 16137921, 16135612, 16133315, 16131031, 16128758, 16126498, 16124249, 16122013, 16119788, 16117575, 16115374, 16113185, 16111007, 16108841, 16106687, 16104545, 16102414, 16100295, 16098187, 16096091, 16094007, 16091934, 16089872, 16087822, 16085783, 16083755, 16081739, 16079735, 16077741, 16075759, 16073788, 16071828, 16069879, 16067942, 16066016, 16064101, 16062196, 16060303, 16058421, 16056550, 16054690, 16052841, 16051003, 16049176, 16047360, 16045554, 16043760, 16041976, 16040203, 16038441, 16036689, 16034949, 16033219, 16031499, 16029791, 16028093, 16026406, 16024729, 16023063, 16021407, 16019762, 16018128, 16016504, 16014891, 16013288, 16011696, 16010114, 16008542, 16006981, 16005430, 16003890, 16002360, 16000841, 15999331, 15997833, 15996344, 15994866, 15993398, 15991940, 15990492, 15989055, 15987628, 15986211, 15984805, 15983408, 15982022, 15980646, 15979280, 15977924, 15976578, 15975242, 15973917, 15972601, 15971296, 15970000, 15968715, 15967440, 15966175, 15964919, 15963674, 15962439, 15961214, 15959998, 15958793, 15957598, 15956412, 15955237, 15954071, 15952915, 15951770, 15950634, 15949508, 15948392, 15947286, 15946189, 15945103, 15944027, 15942960, 15941903, 15940856, 15939819, 15938791, 15937774, 15936766, 15935768, 15934780, 15933802, 15932834, 15931875, 15930926, 15929987, 15929058, 15928138, 15927228, 15926328, 15925438, 15924558, 15923687, 15922826, 15921975, 15921134, 15920302, 15919480, 15918668, 15917865, 15917073, 15916290, 15915517, 15914753, 15914000, 15913256, 15912522, 15911797]
def s6 : List Nat := [15911083, 15910378, 15909682, 15908997, 15908321, 15907655, 15906999, 15906353, 15905716, 15905089, 15904472, 15903865, 15903267, 15902679, 15902101, 15901533, 15900974, 15900426, 15899887, 15899357, 15898838, 15898328, 15897829, 15897339, 15896858, 15896388, 15895928, 15895477, 15895036, 15894605, 15894184, 15893772, 15893371, 15892979, 15892597, 15892225, 15891863, 15891511, 15891169, 15890837, 15890514, 15890202, 15889899, 15889606, 15889324, 15889051, 15888788, 15888535, 15888292, 15888059, 15887837, 15887624, 15887421, 15887228, 15887045, 15886872, 15886710, 15886557, 15886415, 15886282, 15886160, 15886047, 15885945, 15885853, 15885772, 15885700, 15885638, 15885587, 15885546, 15885515, 15885494, 15885484, 15885484, 15885494, 15885514, 15885545, 15885586, 15885637, 15885699, 15885770, 15885853, 15885945, 15886049, 15886162, 15886286, 15886420, 15886565, 15886721, 15886886, 15887063, 15887250, 15887447, 15887655, 15887873, 15888102, 15888342, 15888593, 15888854, 15889125, 15889408, 15889701, 15890004, 15890319, 15890644, 15890980, 15891327, 15891685, 15892054, 15892433, 15892823, 15893224, 15893636, 15894060, 15894494, 15894939, 15895395, 15895862, 15896340, 15896829, 15897329, 15897841, 15898363, 15898897, 15899442, 15899998, 15900565, 15901144, 15901734, 15902335, 15902947, 15903571, 15904206, 15904853, 15905511, 15906181, 15906862, 15907554, 15908258, 15908974, 15909701, 15910440, 15911191, 15911953, 15912727, 15913512, 15914309, 15915119, 15915939, 15916772, 15917617, 15918473, 15919342, 15920222, 15921114, 15922019, 15922935, 15923863, 15924804, 15925757, 15926721, 15927698, 15928688, 15929689, 15930703, 15931729, 15932767, 15933818, 15934881, 15935957, 15937045, 15938145, 15939259, 15940384, 15941523, 15942674, 15943837, 15945014, 15946203, 15947404, 15948619, 15949847, 15951087, 15952340, 15953607, 15954886, 15956178, 15957483, 15958802, 15960133, 15961478, 15962836, 15964207, 15965592, 15966990, 15968401, 15969825, 15971263, 15972715, 15974180, 15975658]
def s7 : List Nat := [15977150, 15978656, 15980175, 15981709, 15983255, 15984816, 15986391, 15987979, 15989581, 15991198, 15992828, 15994472, 15996130, 15997803, 15999490, 16001190, 16002906, 16004635, 16006379, 16008137, 16009910, 16011697, 16013498, 16015314, 16017145, 16018991, 16020851, 16022725, 16024615, 16026520, 16028439, 16030373, 16032323, 16034287, 16036266, 16038261, 16040270, 16042295, 16044335, 16046391, 16048462, 16050548, 16052650, 16054767, 16056900, 16059048, 16061212, 16063392, 16065587, 16067799, 16070026, 16072269, 16074528, 16076803, 16079095, 16081402, 16083725, 16086065, 16088421, 16090794, 16093182, 16095588, 16098009, 16100448, 16102903, 16105374, 16107863, 16110368, 16112890, 16115428, 16117984, 16120557, 16123147, 16125754, 16128378, 16131020, 16133678, 16136355, 16139048, 16141759, 16144488, 16147234, 16149998, 16152779, 16155578, 16158396, 16161231, 16164084, 16166955, 16169844, 16172751, 16175677, 16178620, 16181582, 16184563, 16187562, 16190579, 16193616, 16196670, 16199744, 16202836, 16205947, 16209077, 16212226, 16215394, 16218582, 16221788, 16225014, 16228259, 16231523, 16234807, 16238110, 16241433, 16244776, 16248138, 16251521, 16254923, 16258345, 16261787, 16265249, 16268731, 16272233, 16275756, 16279299, 16282863, 16286447, 16290052, 16293677, 16297323, 16300990, 16304678, 16308387, 16312117, 16315868, 16319640, 16323433, 16327248, 16331084, 16334942, 16338821, 16342722, 16346645, 16350589, 16354556, 16358544, 16362554, 16366587, 16370641, 16374718, 16378818, 16382940, 16387084, 16391251, 16395440, 16399653, 16403888, 16408146, 16412427, 16416732, 16421059, 16425410, 16429784, 16434182, 16438603, 16443047, 16447516, 16452008, 16456524, 16461064, 16465628, 16470217, 16474829, 16479466, 16484127, 16488813, 16493523, 16498258, 16503018, 16507803, 16512612, 16517447, 16522307, 16527191, 16532102, 16537038, 16541999, 16546986, 16551998, 16557037, 16562101, 16567191, 16572307, 16577450, 16582619, 16587814, 16593036, 16598284, 16603559, 16608861, 16614189]
def s8 : List Nat := [16619545, 16624928, 16630338, 16635775, 16641240, 16646732, 16652252, 16657799, 16663375, 16668978, 16674609, 16680269, 16685957, 16691673, 16697418, 16703192, 16708994, 16714825, 16720685, 16726574, 16732493, 16738441, 16744418, 16750425, 16756462, 16762529, 16768626, 16774753, 16780910, 16787098, 16793317, 16799567, 16805847, 16812159, 16818502, 16824877, 16831284, 16837723, 16844194, 16850697, 16857234, 16863804, 16870407, 16877043, 16883715, 16890420, 16897161, 16903938, 16910751, 16917601, 16924489, 16931415, 16938382, 16945389, 16952440, 16959535, 16966677, 16973869, 16981115, 16988418, 16995785, 17003222, 17010740, 17018352, 17026074, 17033933, 17041963, 17050218, 17058776, 17067766, 17077401, 17088058, 17100463, 17116153, 17138892, 17180030, 17288492, 17929473, 34745075, 17575815, 17269605, 17209909, 17192911, 17189040, 17190519, 17194591, 17200078, 17206410, 17213283, 17220524, 17228027, 17235727, 17243580, 17251557, 17259636, 17267803, 17276047, 17284361, 17292738, 17301173, 17309664, 17318207, 17326801, 17335443, 17344133, 17352869, 17361650, 17370476, 17379346, 17388259, 17397216, 17406216, 17415259, 17424345, 17433473, 17442643, 17451856, 17461111, 17470409, 17479749, 17489132, 17498556, 17508024, 17517534, 17527086, 17536682, 17546320, 17556001, 17565725, 17575492, 17585303, 17595156, 17605054, 17614994, 17624979, 17635007, 17645079, 17655196, 17665356, 17675561, 17685811, 17696105, 17706443, 17716827, 17727256, 17737730, 17748249, 17758814, 17769425, 17780081, 17790783, 17801532, 17812326, 17823167, 17834055, 17844989, 17855970, 17866999, 17878074, 17889197, 17900367, 17911584, 17922850, 17934164, 17945525, 17956935, 17968394, 17979901, 17991457, 18003061, 18014715, 18026418, 18038171, 18049973, 18061825, 18073726, 18085678, 18097680, 18109733, 18121836, 18133990, 18146195, 18158451, 18170758, 18183116, 18195526, 18207988, 18220502, 18233068, 18245687, 18258358, 18271081, 18283857, 18296686, 18309569, 18322505, 18335494, 18348537, 18361634, 18374784]
def s9 : List Nat := [18387989, 18401249, 18414563, 18427932, 18441356, 18454834, 18468368, 18481958, 18495603, 18509304, 18523062, 18536875, 18550745, 18564671, 18578654, 18592694, 18606791, 18620946, 18635157, 18649427, 18663754, 18678140, 18692584, 18707086, 18721647, 18736266, 18750945, 18765683, 18780480, 18795336, 18810253, 18825229, 18840266, 18855363, 18870520, 18885738, 18901017, 18916357, 18931759, 18947221, 18962746, 18978333, 18993981, 19009692, 19025465, 19041301, 19057200, 19073162, 19089187, 19105276, 19121428, 19137644, 19153924, 19170269, 19186678, 19203151, 19219690, 19236293, 19252962, 19269696, 19286496, 19303362, 19320294, 19337292, 19354357, 19371489, 19388687, 19405953, 19423286, 19440686, 19458154, 19475690, 19493294, 19510967, 19528708, 19546518, 19564397, 19582346, 19600363, 19618451, 19636608, 19654835, 19673133, 19691501, 19709940, 19728449, 19747030, 19765683, 19784406, 19803202, 19822070, 19841009, 19860022, 19879107, 19898265, 19917495, 19936800, 19956178, 19975629, 19995155, 20014755, 20034429, 20054178, 20074002, 20093901, 20113875, 20133925, 20154050, 20174252, 20194530, 20214884, 20235315, 20255823, 20276408, 20297070, 20317810, 20338628, 20359524, 20380498, 20401551, 20422682, 20443893, 20465183, 20486552, 20508001, 20529529, 20551138, 20572828, 20594598, 20616448, 20638380, 20660394, 20682488, 20704665, 20726924, 20749265, 20771688, 20794195, 20816784, 20839457, 20862213, 20885053, 20907977, 20930985, 20954077, 20977255, 21000517, 21023865, 21047298, 21070817, 21094422, 21118113, 21141891, 21165756, 21189708, 21213747, 21237874, 21262089, 21286392, 21310784, 21335265, 21359836, 21384496, 21409247, 21434089, 21459023, 21484050, 21509170, 21534386, 21559700, 21585117, 21610641, 21636285, 21662069, 21688038, 21714301, 21741199, 21770253, 21817957, 22140873, 21854329, 21873264, 21898062, 21924005, 21950374, 21976973, 22003733, 22030624, 22057632, 22084749, 22111971, 22139295, 22166720, 22194245, 22221869, 22249593, 22277416, 22305338, 22333358, 22361479]
def s10 : List Nat := [22389698, 22418017, 22446436, 22474954, 22503573, 22532292, 22561112, 22590033, 22619055, 22648179, 22677404, 22706731, 22736160, 22765691, 22795326, 22825063, 22854904, 22884848, 22914896, 22945049, 22975305, 23005667, 23036133, 23066704, 23097381, 23128164, 23159053, 23190049, 23221151, 23252360, 23283676, 23315100, 23346631, 23378271, 23410019, 23441876, 23473842, 23505917, 23538102, 23570396, 23602801, 23635316, 23667942, 23700679, 23733527, 23766487, 23799559, 23832743, 23866040, 23899449, 23932972, 23966608, 24000358, 24034222, 24068201, 24102294, 24136502, 24170825, 24205264, 24239819, 24274490, 24309277, 24344181, 24379203, 24414342, 24449598, 24484973, 24520466, 24556078, 24591809, 24627659, 24663629, 24699719, 24735929, 24772260, 24808711, 24845284, 24881979, 24918795, 24955733, 24992795, 25029978, 25067286, 25104716, 25142271, 25179949, 25217753, 25255681, 25293734, 25331912, 25370217, 25408647, 25447204, 25485888, 25524699, 25563638, 25602704, 25641899, 25681222, 25720674, 25760255, 25799965, 25839806, 25879776, 25919877, 25960109, 26000473, 26040968, 26081594, 26122354, 26163245, 26204270, 26245428, 26286720, 26328146, 26369706, 26411401, 26453231, 26495196, 26537297, 26579535, 26621909, 26664420, 26707068, 26749853, 26792777, 26835839, 26879040, 26922380, 26965859, 27009479, 27053238, 27097138, 27141179, 27185361, 27229685, 27274151, 27318760, 27363511, 27408406, 27453444, 27498627, 27543954, 27589427, 27635045, 27680809, 27726721, 27772781, 27818990, 27865352, 27911872, 27958562, 28005461, 28052734, 28102095, 28197817, 28195163, 28241783, 28289268, 28337031, 28384984, 28433105, 28481386, 28529824, 28578418, 28627166, 28676069, 28725127, 28774340, 28823708, 28873232, 28922912, 28972749, 29022742, 29072892, 29123200, 29173666, 29224291, 29275074, 29326017, 29377119, 29428381, 29479804, 29531387, 29583132, 29635039, 29687108, 29739340, 29791735, 29844293, 29897016, 29949902, 30002954, 30056171, 30109554, 30163103, 30216818, 30270701, 30324751, 30378969]
def s11 : List Nat := [30433356, 30487912, 30542637, 30597531, 30652597, 30707832, 30763240, 30818818, 30874569, 30930493, 30986590, 31042860, 31099304, 31155923, 31212717, 31269686, 31326832, 31384154, 31441652, 31499328, 31557182, 31615215, 31673426, 31731817, 31790387, 31849138, 31908070, 31967183, 32026479, 32085956, 32145616, 32205460, 32265488, 32325700, 32386097, 32446679, 32507448, 32568403, 32629545, 32690874, 32752392, 32814098, 32875993, 32938078, 33000353, 33062819, 33125476, 33188324, 33251365, 33314599, 33378027, 33441648, 33505464, 33569475, 33633682, 33698084, 33762684, 33827481, 33892475, 33957669, 34023061, 34088652, 34154444, 34220437, 34286631, 34353027, 34419625, 34486426, 34553431, 34620641, 34688055, 34755675, 34823502, 34891536, 34959778, 35028231, 35096897, 35165787, 35234946, 35304906, 35378303, 35443529, 35513282, 35583374, 35653703, 35724254, 35795022, 35866007, 35937210, 36008629, 36080265, 36152120, 36224193, 36296485, 36368997, 36441730, 36514683, 36587859, 36661257, 36734878, 36808722, 36882791, 36957085, 37031605, 37106351, 37181324, 37256526, 37331955, 37407614, 37483503, 37559622, 37635973, 37712555, 37789371, 37866419, 37943702, 38021220, 38098973, 38176963, 38255190, 38333654, 38412357, 38491299, 38570481, 38649904, 38729569, 38809476, 38889625, 38970019, 39050657, 39131540, 39212669, 39294046, 39375670, 39457542, 39539664, 39622035, 39704657, 39787531, 39870658, 39954037, 40037671, 40121559, 40205703, 40290104, 40374762, 40459678, 40544853, 40630287, 40715983, 40801940, 40888159, 40974641, 41061388, 41148399, 41235677, 41323221, 41411032, 41499112, 41587462, 41676081, 41764972, 41854135, 41943570, 42033280, 42123264, 42213524, 42304061, 42394875, 42485968, 42577341, 42668994, 42760930, 42853150, 42945658, 43038474, 43131872, 43225594, 43318550, 43412437, 43506645, 43601150, 43695947, 43791038, 43886423, 43982101, 44078075, 44174346, 44270913, 44367779, 44464945, 44562410, 44660177, 44758247, 44856620, 44955298, 45054282, 45153572, 45253170, 45353078]
def s12 : List Nat := [45453295, 45553824, 45654665, 45755819, 45857288, 45959073, 46061175, 46163595, 46266334, 46369393, 46472774, 46576478, 46680506, 46784859, 46889538, 46994544, 47099880, 47205545, 47311542, 47417871, 47524534, 47631532, 47738866, 47846538, 47954548, 48062898, 48171590, 48280624, 48390003, 48499726, 48609797, 48720215, 48830982, 48942101, 49053571, 49165394, 49277573, 49390107, 49502999, 49616250, 49729861, 49843834, 49958170, 50072871, 50187938, 50303373, 50419176, 50535350, 50651897, 50768816, 50886111, 51003783, 51121833, 51240265, 51359086, 51478359, 51598626, 51717833, 51838160, 51958894, 52080021, 52201542, 52323458, 52445769, 52568477, 52691585, 52815093, 52939003, 53063318, 53188038, 53313165, 53438702, 53564650, 53691010, 53817785, 53944976, 54072585, 54200614, 54329065, 54457940, 54587239, 54716967, 54847123, 54977710, 55108731, 55240186, 55372079, 55504410, 55637182, 55770397, 55904056, 56038163, 56172718, 56307724, 56443184, 56579098, 56715469, 56852300, 56989592, 57127348, 57265569, 57404259, 57543418, 57683050, 57823157, 57963740, 58104802, 58246346, 58388373, 58530886, 58673888, 58817380, 58961366, 59105847, 59250826, 59396305, 59542288, 59688775, 59835771, 59983278, 60131298, 60279838, 60428942, 60578691, 60728564, 60879176, 61030324, 61182006, 61334221, 61486974, 61640267, 61794102, 61948483, 62103411, 62258891, 62414925, 62571515, 62728665, 62886378, 63044657, 63203505, 63362925, 63522920, 63683492, 63844647, 64006385, 64168712, 64331629, 64495141, 64659250, 64823960, 64989275, 65155197, 65321730, 65488878, 65656644, 65825032, 65994045, 66163687, 66333961, 66504871, 66676422, 66848616, 67021457, 67194950, 67369098, 67543905, 67719376, 67895513, 68072322, 68249805, 68427969, 68606815, 68786350, 68966576, 69147499, 69329123, 69511452, 69694491, 69878247, 70062751, 70248024, 70433836, 70620485, 70807875, 70996008, 71184889, 71374521, 71564911, 71756063, 71947982, 72140673, 72334141, 72528392, 72723431, 72919264, 73115896, 73313332, 73511578, 73710640]
def s13 : List Nat := [73910524, 74111235, 74312779, 74515162, 74718390, 74922470, 75127407, 75333208, 75539879, 75747427, 75955858, 76165178, 76375395, 76586514, 76798544, 77011491, 77225361, 77440163, 77655902, 77872588, 78090226, 78308825, 78528393, 78748936, 78970463, 79192982, 79416501, 79641027, 79866571, 80093139, 80320742, 80549399, 80779277, 81009835, 81241653, 81474552, 81708538, 81943622, 82179812, 82417118, 82655550, 82895118, 83135832, 83377703, 83620741, 83864957, 84110361, 84356965, 84604780, 84853817, 85104088, 85355605, 85608379, 85862424, 86117750, 86374371, 86632299, 86891548, 87152130, 87414436, 87678105, 87943148, 88209579, 88477411, 88746659, 89017339, 89289466, 89563054, 89838120, 90114680, 90392750, 90672346, 90953486, 91236186, 91520466, 91806341, 92093833, 92382982, 92673760, 92966175, 93260309, 93556156, 93853735, 94153066, 94454170, 94757070, 95061788, 95368345, 95676765, 95987073, 96299291, 96613444, 96929557, 97247657, 97567769, 97889919, 98214135, 98540446, 98868879, 99199464, 99532230, 99867208, 100204430, 100543920, 100885730, 101229870, 101576390, 101925320, 102276700, 102630550, 102986930, 103345860, 103707400, 104071560, 104438410, 104807980, 105180320, 105555460, 105933460, 106314950, 106698210, 107085050, 107474940, 107867940, 108264080, 108663440, 109066060, 109472000, 109881330, 110294090, 110710360, 111130190, 111553660, 111980830, 112411780, 112846560, 113285270, 113727960, 114174730, 114625650, 115080810, 115540280, 116004170, 116472550, 116945530, 117423190, 117905640, 118392990, 118885330, 119382780, 119885450, 120393460, 120906920, 121425960, 121950720, 122481310, 123017900, 123560640, 124109550, 124664940, 125226910, 125795620, 126371240, 126953950, 127543920, 128141360, 128746440, 129359380, 129980380, 130609670, 131247470, 131894010, 132549540, 133214310, 133888590, 134572660, 135266800, 135971300, 136686480, 137412670, 138150190, 138899410, 139660680, 140434400, 141220950, 142020760, 142834270, 143661920, 144504190, 145361590, 146234640, 147123920, 148029890, 148953240, 149894590, 150854590, 151833940, 152833350, 153853610, 154895500]
def s14 : List Nat := [155959870, 157047610, 158159670, 159297010, 160460690, 161651790, 162871480, 164120980, 165401570, 166714620, 168061570, 169443950, 170863370, 172321550, 173820310, 175361570, 176947370, 178579900, 180261460, 181994510, 183781670, 185625730, 187529650, 189496620, 191530020, 193633340, 195810590, 198065850, 200403510, 202828300, 205345260, 207959800, 210677710, 213505210, 216448950, 219516070, 222714200, 226051550, 229536880, 233179590, 236989710, 240977980, 245155800, 249535330, 254129440, 258951720, 264016410, 269338410, 274933050, 280816030, 287003070, 293509610, 300350290, 307538310, 315084330, 322995400, 331273780, 339914280, 348902130, 358209890, 367793700, 377589060, 387506160, 397425030, 407191290, 416613180, 425461150, 433471600, 440355920, 445816190, 449567150, 451362720, 451023630, 448460820, 443689760, 436831790, 428102110, 417786730, 406213480, 393722610, 380641530, 367266400, 353850990, 340602380, 327682430, 315210600, 303270300, 291915050, 281174500, 271059820, 261568410, 252687660, 244397940, 236675040, 229491880, 222819870, 216629930, 210893120, 205581170, 200666780, 196123860, 191927630, 188054660, 184482930, 181191770, 178161840, 175375090, 172814680, 170465760, 168311180, 166339920, 164538510, 162895210, 161399140, 160040180, 158808930, 157696670, 156695310, 155797340, 154995770, 154284150, 153656450, 153107110, 152630940, 152223140, 151879240, 151595110, 151366880, 151191000, 151064130, 150983190, 150945320, 150947840, 150988310, 151064320, 151173830, 151314820, 151485430, 151683920, 151908690, 152158240, 152431180, 152726200, 153042090, 153377720, 153732040, 154104060, 154492860, 154897600, 155317470, 155751720, 156199660, 156660630, 157134040, 157619310, 158115910, 158623410, 159141160, 159668910, 160206190, 160752630, 161307870, 161871590, 162443470, 163023220, 163610580, 164205290, 164807120, 165415840, 166031250, 166653170, 167281410, 167915800, 168556190, 169202440, 169854410, 170511980, 171175030, 171843450, 172517150, 173196030, 173880000, 174569000, 175262950, 175961780, 176665440, 177373860, 178087010, 178804830, 179527290, 180254340, 180985970, 181722150, 182462840, 183208040, 183957720, 184711880, 185470500, 186233570, 187001110]
/-- value column after the leading `inf` rows -/
def vals : List Nat := s0 ++ (s1 ++ (s2 ++ (s3 ++ (s4 ++ (s5 ++ (s6 ++ (s7 ++ (s8 ++ (s9 ++ (s10 ++ (s11 ++ (s12 ++ (s13 ++ (s14))))))))))))))

end Ripple.NoiseData.CE

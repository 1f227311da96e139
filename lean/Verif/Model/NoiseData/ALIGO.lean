/-
  Generated by tools/gen_noise.py from src/ripplegw/noise_resources/aLIGO.dat (all 3000 rows, exact decimals).
  Frequencies in units of 1e-4 Hz, second column in units of 1e-28; `none` is `inf`.
-/
namespace Ripple.NoiseData.ALIGO

/-- decimal exponent of the frequency column -/
def fexp : Nat := 4
/-- decimal exponent of the value column -/
def sexp : Nat := 28
def f0 : List Nat := [50000, 50115, 50231, 50347, 50463, 50579, 50696, 50813, 50930, 51047, 51165, 51283, 51401, 51520, 51639, 51758, 51877, 51997, 52117, 52237, 52357, 52478, 52599, 52720, 52842, 52964, 53086, 53208, 53331, 53454, 53577, 53701, 53825, 53949, 54073, 54198, 54323, 54448, 54574, 54699, 54826, 54952, 55079, 55206, 55333, 55461, 55589, 55717, 55845, 55974, 56103, 56232, 56362, 56492, 56622, 56753, 56884, 57015, 57146, 57278, 57410, 57543, 57675, 57808, 57942, 58075, 58209, 58343, 58478, 58613, 58748, 58884, 59019, 59155, 59292, 59429, 59566, 59703, 59841, 59979, 60117, 60256, 60394, 60534, 60673, 60813, 60954, 61094, 61235, 61376, 61518, 61660, 61802, 61944, 62087, 62230, 62374, 62518, 62662, 62806, 62951, 63096, 63242, 63388, 63534, 63680, 63827, 63974, 64122, 64270, 64418, 64566, 64715, 64865, 65014, 65164, 65314, 65465, 65616, 65767, 65919, 66071, 66223, 66376, 66529, 66682, 66836, 66990, 67145, 67300, 67455, 67610, 67766, 67923, 68079, 68236, 68394, 68551, 68709, 68868, 69027, 69186, 69345, 69505, 69666, 69826, 69987, 70149, 70310, 70473, 70635, 70798, 70961, 71125, 71289, 71453, 71618, 71783, 71949, 72115, 72281, 72448, 72615, 72782, 72950, 73118, 73287, 73456, 73625, 73795, 73965, 74136, 74307, 74478, 74650, 74822, 74994, 75167, 75341, 75514, 75689, 75863, 76038, 76213, 76389, 76565, 76742, 76919, 77096, 77274, 77452, 77631, 77810, 77989, 78169, 78349, 78530, 78711, 78893, 79074]
def f1 : List Nat := [79257, 79440, 79623, 79806, 79990, 80175, 80360, 80545, 80731, 80917, 81104, 81291, 81478, 81666, 81854, 82043, 82232, 82422, 82612, 82802, 82993, 83185, 83377, 83569, 83762, 83955, 84148, 84342, 84537, 84732, 84927, 85123, 85319, 85516, 85713, 85911, 86109, 86308, 86507, 86706, 86906, 87106, 87307, 87509, 87710, 87913, 88115, 88319, 88522, 88726, 88931, 89136, 89342, 89548, 89754, 89961, 90169, 90377, 90585, 90794, 91003, 91213, 91423, 91634, 91846, 92057, 92270, 92482, 92696, 92909, 93124, 93338, 93554, 93769, 93986, 94202, 94420, 94637, 94856, 95074, 95294, 95513, 95734, 95954, 96176, 96397, 96620, 96842, 97066, 97290, 97514, 97739, 97964, 98190, 98417, 98643, 98871, 99099, 99327, 99557, 99786, 100020, 100250, 100480, 100710, 100940, 101170, 101410, 101640, 101880, 102110, 102350, 102580, 102820, 103060, 103290, 103530, 103770, 104010, 104250, 104490, 104730, 104970, 105220, 105460, 105700, 105940, 106190, 106430, 106680, 106930, 107170, 107420, 107670, 107910, 108160, 108410, 108660, 108910, 109160, 109420, 109670, 109920, 110180, 110430, 110680, 110940, 111200, 111450, 111710, 111970, 112220, 112480, 112740, 113000, 113260, 113520, 113790, 114050, 114310, 114580, 114840, 115100, 115370, 115640, 115900, 116170, 116440, 116710, 116970, 117240, 117520, 117790, 118060, 118330, 118600, 118880, 119150, 119430, 119700, 119980, 120250, 120530, 120810, 121090, 121370, 121650, 121930, 122210, 122490, 122770, 123060, 123340, 123620, 123910, 124190, 124480, 124770, 125060, 125340]
def f2 : List Nat := [125630, 125920, 126210, 126500, 126800, 127090, 127380, 127670, 127970, 128260, 128560, 128860, 129150, 129450, 129750, 130050, 130350, 130650, 130950, 131250, 131560, 131860, 132160, 132470, 132770, 133080, 133390, 133690, 134000, 134310, 134620, 134930, 135240, 135550, 135870, 136180, 136490, 136810, 137120, 137440, 137760, 138080, 138390, 138710, 139030, 139350, 139680, 140000, 140320, 140640, 140970, 141290, 141620, 141950, 142270, 142600, 142930, 143260, 143590, 143920, 144250, 144590, 144920, 145250, 145590, 145920, 146260, 146600, 146940, 147270, 147610, 147950, 148300, 148640, 148980, 149320, 149670, 150010, 150360, 150710, 151050, 151400, 151750, 152100, 152450, 152800, 153160, 153510, 153860, 154220, 154570, 154930, 155290, 155640, 156000, 156360, 156720, 157090, 157450, 157810, 158170, 158540, 158900, 159270, 159640, 160010, 160380, 160750, 161120, 161490, 161860, 162230, 162610, 162980, 163360, 163740, 164110, 164490, 164870, 165250, 165630, 166010, 166400, 166780, 167160, 167550, 167940, 168320, 168710, 169100, 169490, 169880, 170270, 170670, 171060, 171450, 171850, 172250, 172640, 173040, 173440, 173840, 174240, 174640, 175050, 175450, 175850, 176260, 176670, 177070, 177480, 177890, 178300, 178710, 179120, 179540, 179950, 180370, 180780, 181200, 181620, 182040, 182460, 182880, 183300, 183720, 184140, 184570, 184990, 185420, 185850, 186280, 186710, 187140, 187570, 188000, 188440, 188870, 189310, 189740, 190180, 190620, 191060, 191500, 191940, 192380, 192830, 193270, 193720, 194160, 194610, 195060, 195510, 195960, 196410, 196860, 197320, 197770, 198230, 198690]
def f3 : List Nat := [199150, 199600, 200060, 200530, 200990, 201450, 201920, 202380, 202850, 203320, 203790, 204260, 204730, 205200, 205670, 206150, 206620, 207100, 207580, 208050, 208530, 209010, 209500, 209980, 210460, 210950, 211440, 211920, 212410, 212900, 213390, 213890, 214380, 214870, 215370, 215860, 216360, 216860, 217360, 217860, 218370, 218870, 219370, 219880, 220390, 220890, 221400, 221910, 222430, 222940, 223450, 223970, 224490, 225000, 225520, 226040, 226560, 227090, 227610, 228130, 228660, 229190, 229720, 230250, 230780, 231310, 231840, 232380, 232910, 233450, 233990, 234530, 235070, 235610, 236150, 236700, 237240, 237790, 238340, 238890, 239440, 239990, 240550, 241100, 241660, 242210, 242770, 243330, 243890, 244460, 245020, 245580, 246150, 246720, 247290, 247860, 248430, 249000, 249580, 250150, 250730, 251310, 251890, 252470, 253050, 253630, 254220, 254800, 255390, 255980, 256570, 257160, 257760, 258350, 258950, 259540, 260140, 260740, 261340, 261940, 262550, 263150, 263760, 264370, 264980, 265590, 266200, 266820, 267430, 268050, 268670, 269290, 269910, 270530, 271150, 271780, 272410, 273030, 273660, 274290, 274930, 275560, 276200, 276830, 277470, 278110, 278750, 279400, 280040, 280690, 281330, 281980, 282630, 283280, 283940, 284590, 285250, 285910, 286560, 287230, 287890, 288550, 289220, 289880, 290550, 291220, 291890, 292570, 293240, 293920, 294600, 295280, 295960, 296640, 297320, 298010, 298700, 299380, 300070, 300770, 301460, 302160, 302850, 303550, 304250, 304950, 305660, 306360, 307070, 307770, 308480, 309200, 309910, 310620, 311340, 312060, 312780, 313500, 314220, 314950]
def f4 : List Nat := [315670, 316400, 317130, 317860, 318590, 319330, 320070, 320800, 321540, 322280, 323030, 323770, 324520, 325270, 326020, 326770, 327520, 328280, 329040, 329790, 330550, 331320, 332080, 332850, 333610, 334380, 335150, 335930, 336700, 337480, 338260, 339040, 339820, 340600, 341390, 342180, 342960, 343760, 344550, 345340, 346140, 346940, 347740, 348540, 349340, 350150, 350960, 351760, 352580, 353390, 354200, 355020, 355840, 356660, 357480, 358310, 359130, 359960, 360790, 361620, 362460, 363290, 364130, 364970, 365810, 366660, 367500, 368350, 369200, 370050, 370900, 371760, 372620, 373470, 374340, 375200, 376060, 376930, 377800, 378670, 379550, 380420, 381300, 382180, 383060, 383940, 384830, 385710, 386600, 387500, 388390, 389280, 390180, 391080, 391980, 392890, 393790, 394700, 395610, 396520, 397440, 398360, 399270, 400190, 401120, 402040, 402970, 403900, 404830, 405760, 406700, 407640, 408580, 409520, 410460, 411410, 412360, 413310, 414260, 415220, 416180, 417140, 418100, 419060, 420030, 421000, 421970, 422940, 423920, 424890, 425870, 426860, 427840, 428830, 429810, 430810, 431800, 432800, 433790, 434790, 435800, 436800, 437810, 438820, 439830, 440840, 441860, 442880, 443900, 444920, 445950, 446980, 448010, 449040, 450080, 451120, 452160, 453200, 454240, 455290, 456340, 457390, 458450, 459510, 460570, 461630, 462690, 463760, 464830, 465900, 466970, 468050, 469130, 470210, 471300, 472380, 473470, 474570, 475660, 476760, 477860, 478960, 480060, 481170, 482280, 483390, 484510, 485620, 486740, 487870, 488990, 490120, 491250, 492380, 493520, 494650, 495790, 496940, 498080, 499230]
def f5 : List Nat := [500380, 501540, 502690, 503850, 505020, 506180, 507350, 508520, 509690, 510870, 512040, 513220, 514410, 515590, 516780, 517970, 519170, 520370, 521570, 522770, 523970, 525180, 526390, 527610, 528820, 530040, 531270, 532490, 533720, 534950, 536180, 537420, 538660, 539900, 541150, 542390, 543650, 544900, 546160, 547410, 548680, 549940, 551210, 552480, 553760, 555030, 556310, 557600, 558880, 560170, 561460, 562760, 564050, 565350, 566660, 567970, 569280, 570590, 571900, 573220, 574540, 575870, 577200, 578530, 579860, 581200, 582540, 583880, 585230, 586580, 587930, 589290, 590650, 592010, 593370, 594740, 596110, 597490, 598870, 600250, 601630, 603020, 604410, 605800, 607200, 608600, 610000, 611410, 612820, 614230, 615650, 617070, 618490, 619920, 621350, 622780, 624220, 625660, 627100, 628550, 629990, 631450, 632900, 634360, 635830, 637290, 638760, 640230, 641710, 643190, 644670, 646160, 647650, 649140, 650640, 652140, 653650, 655150, 656660, 658180, 659700, 661220, 662740, 664270, 665800, 667340, 668880, 670420, 671960, 673510, 675070, 676620, 678180, 679750, 681320, 682890, 684460, 686040, 687620, 689210, 690800, 692390, 693990, 695590, 697190, 698800, 700410, 702020, 703640, 705270, 706890, 708520, 710160, 711790, 713440, 715080, 716730, 718380, 720040, 721700, 723360, 725030, 726700, 728380, 730060, 731740, 733430, 735120, 736820, 738520, 740220, 741930, 743640, 745350, 747070, 748790, 750520, 752250, 753990, 755720, 757470, 759210, 760960, 762720, 764480, 766240, 768010, 769780, 771550, 773330, 775120, 776900, 778700, 780490, 782290, 784090, 785900, 787720, 789530, 791350]
def f6 : List Nat := [793180, 795010, 796840, 798680, 800520, 802360, 804210, 806070, 807930, 809790, 811660, 813530, 815410, 817290, 819170, 821060, 822950, 824850, 826750, 828660, 830570, 832490, 834410, 836330, 838260, 840190, 842130, 844070, 846020, 847970, 849920, 851880, 853850, 855820, 857790, 859770, 861750, 863740, 865730, 867730, 869730, 871730, 873740, 875760, 877780, 879800, 881830, 883860, 885900, 887950, 889990, 892050, 894100, 896160, 898230, 900300, 902380, 904460, 906550, 908640, 910730, 912830, 914940, 917050, 919160, 921280, 923400, 925530, 927670, 929810, 931950, 934100, 936250, 938410, 940580, 942750, 944920, 947100, 949280, 951470, 953670, 955870, 958070, 960280, 962490, 964710, 966940, 969170, 971400, 973640, 975890, 978140, 980390, 982660, 984920, 987190, 989470, 991750, 994040, 996330, 998630, 1000900, 1003200, 1005600, 1007900, 1010200, 1012500, 1014900, 1017200, 1019500, 1021900, 1024300, 1026600, 1029000, 1031400, 1033700, 1036100, 1038500, 1040900, 1043300, 1045700, 1048100, 1050500, 1053000, 1055400, 1057800, 1060300, 1062700, 1065200, 1067600, 1070100, 1072500, 1075000, 1077500, 1080000, 1082500, 1085000, 1087500, 1090000, 1092500, 1095000, 1097500, 1100100, 1102600, 1105100, 1107700, 1110200, 1112800, 1115400, 1117900, 1120500, 1123100, 1125700, 1128300, 1130900, 1133500, 1136100, 1138700, 1141400, 1144000, 1146600, 1149300, 1151900, 1154600, 1157200, 1159900, 1162600, 1165300, 1168000, 1170600, 1173300, 1176100, 1178800, 1181500, 1184200, 1186900, 1189700, 1192400, 1195200, 1197900, 1200700, 1203500, 1206200, 1209000, 1211800, 1214600, 1217400, 1220200, 1223000, 1225800, 1228700, 1231500, 1234300, 1237200, 1240000, 1242900, 1245800, 1248600, 1251500, 1254400]
def f7 : List Nat := [1257300, 1260200, 1263100, 1266000, 1268900, 1271900, 1274800, 1277700, 1280700, 1283600, 1286600, 1289600, 1292500, 1295500, 1298500, 1301500, 1304500, 1307500, 1310500, 1313500, 1316600, 1319600, 1322600, 1325700, 1328800, 1331800, 1334900, 1338000, 1341100, 1344100, 1347200, 1350400, 1353500, 1356600, 1359700, 1362900, 1366000, 1369100, 1372300, 1375500, 1378600, 1381800, 1385000, 1388200, 1391400, 1394600, 1397800, 1401000, 1404300, 1407500, 1410800, 1414000, 1417300, 1420500, 1423800, 1427100, 1430400, 1433700, 1437000, 1440300, 1443600, 1447000, 1450300, 1453600, 1457000, 1460400, 1463700, 1467100, 1470500, 1473900, 1477300, 1480700, 1484100, 1487500, 1490900, 1494400, 1497800, 1501300, 1504700, 1508200, 1511700, 1515200, 1518700, 1522200, 1525700, 1529200, 1532700, 1536300, 1539800, 1543400, 1546900, 1550500, 1554100, 1557600, 1561200, 1564800, 1568400, 1572100, 1575700, 1579300, 1583000, 1586600, 1590300, 1593900, 1597600, 1601300, 1605000, 1608700, 1612400, 1616100, 1619800, 1623600, 1627300, 1631100, 1634800, 1638600, 1642400, 1646200, 1650000, 1653800, 1657600, 1661400, 1665200, 1669100, 1672900, 1676800, 1680700, 1684500, 1688400, 1692300, 1696200, 1700100, 1704000, 1708000, 1711900, 1715900, 1719800, 1723800, 1727800, 1731700, 1735700, 1739700, 1743700, 1747800, 1751800, 1755800, 1759900, 1763900, 1768000, 1772100, 1776200, 1780300, 1784400, 1788500, 1792600, 1796800, 1800900, 1805000, 1809200, 1813400, 1817600, 1821800, 1826000, 1830200, 1834400, 1838600, 1842900, 1847100, 1851400, 1855600, 1859900, 1864200, 1868500, 1872800, 1877100, 1881500, 1885800, 1890100, 1894500, 1898900, 1903300, 1907600, 1912000, 1916500, 1920900, 1925300, 1929700, 1934200, 1938700, 1943100, 1947600, 1952100, 1956600, 1961100, 1965600, 1970200, 1974700, 1979300, 1983800, 1988400]
def f8 : List Nat := [1993000, 1997600, 2002200, 2006800, 2011400, 2016100, 2020700, 2025400, 2030000, 2034700, 2039400, 2044100, 2048800, 2053600, 2058300, 2063000, 2067800, 2072600, 2077300, 2082100, 2086900, 2091800, 2096600, 2101400, 2106300, 2111100, 2116000, 2120900, 2125800, 2130700, 2135600, 2140500, 2145400, 2150400, 2155300, 2160300, 2165300, 2170300, 2175300, 2180300, 2185300, 2190400, 2195400, 2200500, 2205600, 2210600, 2215700, 2220800, 2226000, 2231100, 2236200, 2241400, 2246600, 2251800, 2256900, 2262200, 2267400, 2272600, 2277800, 2283100, 2288400, 2293600, 2298900, 2304200, 2309500, 2314900, 2320200, 2325600, 2330900, 2336300, 2341700, 2347100, 2352500, 2357900, 2363400, 2368800, 2374300, 2379700, 2385200, 2390700, 2396200, 2401800, 2407300, 2412900, 2418400, 2424000, 2429600, 2435200, 2440800, 2446400, 2452100, 2457700, 2463400, 2469100, 2474800, 2480500, 2486200, 2491900, 2497700, 2503400, 2509200, 2515000, 2520800, 2526600, 2532400, 2538300, 2544100, 2550000, 2555900, 2561800, 2567700, 2573600, 2579500, 2585500, 2591400, 2597400, 2603400, 2609400, 2615400, 2621500, 2627500, 2633600, 2639600, 2645700, 2651800, 2657900, 2664100, 2670200, 2676400, 2682500, 2688700, 2694900, 2701100, 2707400, 2713600, 2719900, 2726100, 2732400, 2738700, 2745000, 2751400, 2757700, 2764100, 2770500, 2776800, 2783200, 2789700, 2796100, 2802500, 2809000, 2815500, 2822000, 2828500, 2835000, 2841500, 2848100, 2854700, 2861300, 2867800, 2874500, 2881100, 2887700, 2894400, 2901100, 2907800, 2914500, 2921200, 2927900, 2934700, 2941400, 2948200, 2955000, 2961800, 2968700, 2975500, 2982400, 2989200, 2996100, 3003100, 3010000, 3016900, 3023900, 3030800, 3037800, 3044800, 3051900, 3058900, 3066000, 3073000, 3080100, 3087200, 3094300, 3101500, 3108600, 3115800, 3123000, 3130200, 3137400, 3144600, 3151900]
def f9 : List Nat := [3159100, 3166400, 3173700, 3181100, 3188400, 3195700, 3203100, 3210500, 3217900, 3225300, 3232800, 3240200, 3247700, 3255200, 3262700, 3270200, 3277700, 3285300, 3292900, 3300500, 3308100, 3315700, 3323400, 3331000, 3338700, 3346400, 3354100, 3361900, 3369600, 3377400, 3385200, 3393000, 3400800, 3408600, 3416500, 3424400, 3432300, 3440200, 3448100, 3456100, 3464000, 3472000, 3480000, 3488100, 3496100, 3504200, 3512300, 3520400, 3528500, 3536600, 3544800, 3552900, 3561100, 3569300, 3577600, 3585800, 3594100, 3602400, 3610700, 3619000, 3627400, 3635700, 3644100, 3652500, 3660900, 3669400, 3677800, 3686300, 3694800, 3703300, 3711900, 3720400, 3729000, 3737600, 3746200, 3754900, 3763500, 3772200, 3780900, 3789600, 3798400, 3807100, 3815900, 3824700, 3833500, 3842400, 3851200, 3860100, 3869000, 3877900, 3886900, 3895800, 3904800, 3913800, 3922800, 3931900, 3941000, 3950000, 3959200, 3968300, 3977400, 3986600, 3995800, 4005000, 4014300, 4023500, 4032800, 4042100, 4051400, 4060800, 4070100, 4079500, 4088900, 4098300, 4107800, 4117300, 4126800, 4136300, 4145800, 4155400, 4165000, 4174600, 4184200, 4193800, 4203500, 4213200, 4222900, 4232700, 4242400, 4252200, 4262000, 4271800, 4281700, 4291600, 4301500, 4311400, 4321300, 4331300, 4341300, 4351300, 4361300, 4371400, 4381400, 4391600, 4401700, 4411800, 4422000, 4432200, 4442400, 4452700, 4462900, 4473200, 4483500, 4493900, 4504200, 4514600, 4525000, 4535500, 4545900, 4556400, 4566900, 4577500, 4588000, 4598600, 4609200, 4619800, 4630500, 4641200, 4651900, 4662600, 4673300, 4684100, 4694900, 4705700, 4716600, 4727500, 4738400, 4749300, 4760200, 4771200, 4782200, 4793300, 4804300, 4815400, 4826500, 4837600, 4848800, 4860000, 4871200, 4882400, 4893700, 4904900, 4916300, 4927600, 4939000, 4950300, 4961800, 4973200, 4984700, 4996200]
def f10 : List Nat := [5007700, 5019200, 5030800, 5042400, 5054000, 5065700, 5077400, 5089100, 5100800, 5112600, 5124400, 5136200, 5148000, 5159900, 5171800, 5183700, 5195700, 5207700, 5219700, 5231700, 5243800, 5255900, 5268000, 5280100, 5292300, 5304500, 5316700, 5329000, 5341300, 5353600, 5366000, 5378300, 5390700, 5403200, 5415600, 5428100, 5440600, 5453200, 5465700, 5478400, 5491000, 5503600, 5516300, 5529100, 5541800, 5554600, 5567400, 5580200, 5593100, 5606000, 5618900, 5631900, 5644900, 5657900, 5670900, 5684000, 5697100, 5710300, 5723400, 5736600, 5749900, 5763100, 5776400, 5789700, 5803100, 5816500, 5829900, 5843300, 5856800, 5870300, 5883800, 5897400, 5911000, 5924600, 5938300, 5952000, 5965700, 5979500, 5993300, 6007100, 6020900, 6034800, 6048700, 6062700, 6076700, 6090700, 6104700, 6118800, 6132900, 6147000, 6161200, 6175400, 6189700, 6203900, 6218300, 6232600, 6247000, 6261400, 6275800, 6290300, 6304800, 6319300, 6333900, 6348500, 6363100, 6377800, 6392500, 6407300, 6422000, 6436800, 6451700, 6466600, 6481500, 6496400, 6511400, 6526400, 6541500, 6556600, 6571700, 6586800, 6602000, 6617200, 6632500, 6647800, 6663100, 6678500, 6693900, 6709300, 6724800, 6740300, 6755900, 6771400, 6787000, 6802700, 6818400, 6834100, 6849900, 6865700, 6881500, 6897400, 6913300, 6929200, 6945200, 6961200, 6977300, 6993300, 7009500, 7025600, 7041800, 7058100, 7074400, 7090700, 7107000, 7123400, 7139800, 7156300, 7172800, 7189300, 7205900, 7222500, 7239200, 7255900, 7272600, 7289400, 7306200, 7323000, 7339900, 7356900, 7373800, 7390800, 7407900, 7425000, 7442100, 7459200, 7476400, 7493700, 7511000, 7528300, 7545600, 7563000, 7580500, 7598000, 7615500, 7633000, 7650600, 7668300, 7686000, 7703700, 7721500, 7739300, 7757100, 7775000, 7792900, 7810900, 7828900, 7847000, 7865100, 7883200, 7901400, 7919600]
def f11 : List Nat := [7937900, 7956200, 7974500, 7992900, 8011300, 8029800, 8048300, 8066900, 8085500, 8104100, 8122800, 8141600, 8160300, 8179100, 8198000, 8216900, 8235900, 8254900, 8273900, 8293000, 8312100, 8331300, 8350500, 8369700, 8389000, 8408400, 8427800, 8447200, 8466700, 8486200, 8505800, 8525400, 8545000, 8564700, 8584500, 8604300, 8624100, 8644000, 8664000, 8683900, 8704000, 8724000, 8744100, 8764300, 8784500, 8804800, 8825100, 8845400, 8865800, 8886300, 8906800, 8927300, 8947900, 8968500, 8989200, 9009900, 9030700, 9051500, 9072400, 9093300, 9114300, 9135300, 9156400, 9177500, 9198700, 9219900, 9241100, 9262500, 9283800, 9305200, 9326700, 9348200, 9369700, 9391300, 9413000, 9434700, 9456500, 9478300, 9500100, 9522000, 9544000, 9566000, 9588100, 9610200, 9632300, 9654500, 9676800, 9699100, 9721500, 9743900, 9766400, 9788900, 9811500, 9834100, 9856800, 9879500, 9902300, 9925100, 9948000, 9971000, 9993900, 10017000, 10040000, 10063000, 10086000, 10110000, 10133000, 10156000, 10180000, 10203000, 10227000, 10250000, 10274000, 10298000, 10321000, 10345000, 10369000, 10393000, 10417000, 10441000, 10465000, 10489000, 10513000, 10538000, 10562000, 10586000, 10611000, 10635000, 10660000, 10684000, 10709000, 10734000, 10758000, 10783000, 10808000, 10833000, 10858000, 10883000, 10908000, 10933000, 10958000, 10984000, 11009000, 11034000, 11060000, 11085000, 11111000, 11137000, 11162000, 11188000, 11214000, 11240000, 11266000, 11292000, 11318000, 11344000, 11370000, 11396000, 11422000, 11449000, 11475000, 11502000, 11528000, 11555000, 11581000, 11608000, 11635000, 11662000, 11689000, 11715000, 11742000, 11770000, 11797000, 11824000, 11851000, 11879000, 11906000, 11933000, 11961000, 11988000, 12016000, 12044000, 12072000, 12099000, 12127000, 12155000, 12183000, 12211000, 12240000, 12268000, 12296000, 12324000, 12353000, 12381000, 12410000, 12439000, 12467000, 12496000, 12525000, 12554000]
def f12 : List Nat := [12583000, 12612000, 12641000, 12670000, 12699000, 12728000, 12758000, 12787000, 12817000, 12846000, 12876000, 12905000, 12935000, 12965000, 12995000, 13025000, 13055000, 13085000, 13115000, 13145000, 13176000, 13206000, 13237000, 13267000, 13298000, 13328000, 13359000, 13390000, 13421000, 13452000, 13483000, 13514000, 13545000, 13576000, 13608000, 13639000, 13670000, 13702000, 13734000, 13765000, 13797000, 13829000, 13861000, 13893000, 13925000, 13957000, 13989000, 14021000, 14054000, 14086000, 14118000, 14151000, 14184000, 14216000, 14249000, 14282000, 14315000, 14348000, 14381000, 14414000, 14447000, 14481000, 14514000, 14548000, 14581000, 14615000, 14648000, 14682000, 14716000, 14750000, 14784000, 14818000, 14852000, 14887000, 14921000, 14955000, 14990000, 15024000, 15059000, 15094000, 15129000, 15163000, 15198000, 15233000, 15269000, 15304000, 15339000, 15374000, 15410000, 15445000, 15481000, 15517000, 15553000, 15588000, 15624000, 15660000, 15696000, 15733000, 15769000, 15805000, 15842000, 15878000, 15915000, 15952000, 15988000, 16025000, 16062000, 16099000, 16136000, 16174000, 16211000, 16248000, 16286000, 16323000, 16361000, 16399000, 16436000, 16474000, 16512000, 16550000, 16589000, 16627000, 16665000, 16704000, 16742000, 16781000, 16819000, 16858000, 16897000, 16936000, 16975000, 17014000, 17054000, 17093000, 17132000, 17172000, 17211000, 17251000, 17291000, 17331000, 17371000, 17411000, 17451000, 17491000, 17531000, 17572000, 17612000, 17653000, 17694000, 17735000, 17775000, 17816000, 17858000, 17899000, 17940000, 17981000, 18023000, 18064000, 18106000, 18148000, 18190000, 18232000, 18274000, 18316000, 18358000, 18400000, 18443000, 18485000, 18528000, 18571000, 18613000, 18656000, 18699000, 18743000, 18786000, 18829000, 18872000, 18916000, 18960000, 19003000, 19047000, 19091000, 19135000, 19179000, 19223000, 19268000, 19312000, 19357000, 19401000, 19446000, 19491000, 19536000, 19581000, 19626000, 19671000, 19717000, 19762000, 19808000, 19853000, 19899000]
def f13 : List Nat := [19945000, 19991000, 20037000, 20083000, 20130000, 20176000, 20223000, 20269000, 20316000, 20363000, 20410000, 20457000, 20504000, 20551000, 20599000, 20646000, 20694000, 20742000, 20789000, 20837000, 20885000, 20934000, 20982000, 21030000, 21079000, 21127000, 21176000, 21225000, 21274000, 21323000, 21372000, 21421000, 21471000, 21520000, 21570000, 21620000, 21670000, 21719000, 21770000, 21820000, 21870000, 21921000, 21971000, 22022000, 22073000, 22123000, 22174000, 22226000, 22277000, 22328000, 22380000, 22431000, 22483000, 22535000, 22587000, 22639000, 22691000, 22743000, 22796000, 22848000, 22901000, 22954000, 23007000, 23060000, 23113000, 23166000, 23220000, 23273000, 23327000, 23381000, 23435000, 23489000, 23543000, 23597000, 23652000, 23706000, 23761000, 23816000, 23871000, 23926000, 23981000, 24036000, 24092000, 24147000, 24203000, 24259000, 24315000, 24371000, 24427000, 24483000, 24540000, 24596000, 24653000, 24710000, 24767000, 24824000, 24881000, 24938000, 24996000, 25054000, 25111000, 25169000, 25227000, 25285000, 25344000, 25402000, 25461000, 25520000, 25578000, 25637000, 25696000, 25756000, 25815000, 25875000, 25934000, 25994000, 26054000, 26114000, 26174000, 26235000, 26295000, 26356000, 26417000, 26478000, 26539000, 26600000, 26661000, 26723000, 26784000, 26846000, 26908000, 26970000, 27032000, 27095000, 27157000, 27220000, 27282000, 27345000, 27408000, 27472000, 27535000, 27598000, 27662000, 27726000, 27790000, 27854000, 27918000, 27982000, 28047000, 28112000, 28176000, 28241000, 28307000, 28372000, 28437000, 28503000, 28569000, 28634000, 28701000, 28767000, 28833000, 28900000, 28966000, 29033000, 29100000, 29167000, 29234000, 29302000, 29369000, 29437000, 29505000, 29573000, 29641000, 29709000, 29778000, 29847000, 29915000, 29984000, 30054000, 30123000, 30192000, 30262000, 30332000, 30402000, 30472000, 30542000, 30613000, 30683000, 30754000, 30825000, 30896000, 30967000, 31039000, 31110000, 31182000, 31254000, 31326000, 31398000, 31470000, 31543000]
def f14 : List Nat := [31616000, 31689000, 31762000, 31835000, 31908000, 31982000, 32056000, 32130000, 32204000, 32278000, 32352000, 32427000, 32502000, 32577000, 32652000, 32727000, 32803000, 32878000, 32954000, 33030000, 33106000, 33183000, 33259000, 33336000, 33413000, 33490000, 33567000, 33644000, 33722000, 33800000, 33878000, 33956000, 34034000, 34113000, 34191000, 34270000, 34349000, 34428000, 34508000, 34587000, 34667000, 34747000, 34827000, 34907000, 34988000, 35069000, 35149000, 35231000, 35312000, 35393000, 35475000, 35557000, 35639000, 35721000, 35803000, 35886000, 35968000, 36051000, 36135000, 36218000, 36301000, 36385000, 36469000, 36553000, 36637000, 36722000, 36807000, 36891000, 36977000, 37062000, 37147000, 37233000, 37319000, 37405000, 37491000, 37578000, 37664000, 37751000, 37838000, 37925000, 38013000, 38100000, 38188000, 38276000, 38365000, 38453000, 38542000, 38631000, 38720000, 38809000, 38899000, 38988000, 39078000, 39168000, 39259000, 39349000, 39440000, 39531000, 39622000, 39713000, 39805000, 39897000, 39989000, 40081000, 40173000, 40266000, 40359000, 40452000, 40545000, 40639000, 40732000, 40826000, 40921000, 41015000, 41109000, 41204000, 41299000, 41395000, 41490000, 41586000, 41682000, 41778000, 41874000, 41971000, 42067000, 42164000, 42262000, 42359000, 42457000, 42555000, 42653000, 42751000, 42850000, 42948000, 43048000, 43147000, 43246000, 43346000, 43446000, 43546000, 43647000, 43747000, 43848000, 43949000, 44051000, 44152000, 44254000, 44356000, 44458000, 44561000, 44664000, 44767000, 44870000, 44973000, 45077000, 45181000, 45285000, 45390000, 45494000, 45599000, 45704000, 45810000, 45915000, 46021000, 46127000, 46234000, 46340000, 46447000, 46554000, 46662000, 46769000, 46877000, 46985000, 47094000, 47202000, 47311000, 47420000, 47529000, 47639000, 47749000, 47859000, 47969000, 48080000, 48191000, 48302000, 48413000, 48525000, 48637000, 48749000, 48861000, 48974000, 49087000, 49200000, 49314000, 49427000, 49541000, 49656000, 49770000, 49885000, 50000000]
/-- frequency column -/
def freqs : List Nat := f0 ++ (f1 ++ (f2 ++ (f3 ++ (f4 ++ (f5 ++ (f6 ++ (f7 ++ (f8 ++ (f9 ++ (f10 ++ (f11 ++ (f12 ++ (f13 ++ (f14))))))))))))))
/-- number of leading rows whose value is `inf` -/
def ninf : Nat := 0
def s0 : List Nat := [199970000, 194620000, 189420000, 184370000, 179460000, 174690000, 170050000, 165550000, 161170000, 156910000, 152770000, 148750000, 144840000, 141040000, 137340000, 133750000, 130260000, 126860000, 123550000, 120340000, 117220000, 114180000, 111220000, 108350000, 105550000, 102830000, 100180000, 97607000, 95103000, 92666000, 90295000, 87988000, 85744000, 83559000, 81434000, 79365000, 77352000, 75393000, 73487000, 71631000, 69824000, 68066000, 66354000, 64688000, 63066000, 61487000, 59950000, 58453000, 56996000, 55577000, 54195000, 52850000, 51540000, 50264000, 49022000, 47812000, 46634000, 45486000, 44369000, 43280000, 42220000, 41187000, 40181000, 39201000, 38246000, 37316000, 36410000, 35528000, 34668000, 33830000, 33014000, 32218000, 31443000, 30688000, 29953000, 29236000, 28537000, 27856000, 27193000, 26546000, 25916000, 25302000, 24703000, 24120000, 23551000, 22997000, 22457000, 21931000, 21418000, 20917000, 20430000, 19955000, 19491000, 19040000, 18600000, 18170000, 17752000, 17344000, 16947000, 16559000, 16181000, 15812000, 15453000, 15103000, 14762000, 14429000, 14104000, 13788000, 13479000, 13178000, 12885000, 12599000, 12320000, 12048000, 11783000, 11524000, 11272000, 11027000, 10787000, 10553000, 10326000, 10103000, 9886800, 9675600, 9469700, 9268900, 9073200, 8882300, 8696200, 8514800, 8337800, 8165400, 7997200, 7833200, 7673400, 7517500, 7365600, 7217400, 7073000, 6932300, 6795000, 6661200, 6530800, 6403700, 6279800, 6159000, 6041200, 5926500, 5814600, 5705600, 5599400, 5495800, 5394900, 5296600, 5200700, 5107300, 5016300, 4927700, 4841300, 4757100, 4675100, 4595200, 4517300, 4441500, 4367600, 4295700, 4225600, 4157300, 4090800, 4026100, 3963000, 3901600, 3841800, 3783600, 3726900, 3671700, 3618000, 3565600, 3514700, 3465100, 3416900, 3369900, 3324200, 3279700, 3236500, 3194300, 3153400, 3113500, 3074700, 3037000, 3000400, 2964700, 2930000, 2896300, 2863500, 2831600, 2800700, 2770600, 2741300, 2712900]
def s1 : List Nat := [2685300, 2658600, 2632600, 2607300, 2582800, 2559100, 2536100, 2513700, 2492100, 2471200, 2450900, 2431200, 2412300, 2393900, 2376200, 2359100, 2342600, 2326800, 2311500, 2296800, 2282700, 2269200, 2256300, 2244000, 2232200, 2221000, 2210400, 2200400, 2191000, 2182200, 2174000, 2166400, 2159400, 2153100, 2147400, 2142300, 2138000, 2134300, 2131400, 2129200, 2127800, 2127200, 2127400, 2128500, 2130500, 2133500, 2137500, 2142600, 2148900, 2156400, 2165100, 2175300, 2187000, 2200300, 2215400, 2232300, 2251300, 2272600, 2296300, 2322700, 2352100, 2384800, 2421100, 2461500, 2506500, 2556600, 2612500, 2675000, 2745100, 2823800, 2912600, 3013100, 3127400, 3258100, 3408400, 3582600, 3786000, 4026000, 4312400, 4659000, 5085700, 5621800, 6313500, 7237000, 8527600, 10452000, 13616000, 19762000, 36774000, 306680000, 47297000, 21756000, 14056000, 10349000, 8173600, 6745900, 5739200, 4992700, 4418300, 3963600, 3595500, 3291900, 3037700, 2822300, 2637500, 2477700, 2338300, 2215800, 2107400, 2011000, 1924800, 1847300, 1777300, 1713900, 1656200, 1603500, 1555200, 1510800, 1469900, 1432000, 1396900, 1364300, 1333900, 1305600, 1279000, 1254100, 1230600, 1208500, 1187700, 1167900, 1149200, 1131500, 1114600, 1098600, 1083200, 1068600, 1054500, 1041100, 1028200, 1015800, 1003900, 992420, 981340, 970640, 960300, 950290, 940600, 931200, 922070, 913200, 904580, 896190, 888020, 880050, 872280, 864690, 857280, 850040, 842960, 836020, 829230, 822580, 816060, 809660, 803390, 797220, 791170, 785230, 779380, 773640, 767980, 762420, 756940, 751550, 746240, 741010, 735850, 730760, 725750, 720800, 715920, 711110, 706360, 701660, 697030, 692460, 687940, 683470, 679060, 674700, 670390, 666120, 661910, 657740, 653620, 649550, 645510, 641520, 637570, 633670]
def s2 : List Nat := [629800, 625970, 622180, 618430, 614710, 611030, 607390, 603780, 600200, 596660, 593150, 589680, 586230, 582820, 579440, 576090, 572760, 569470, 566210, 562970, 559760, 556580, 553430, 550300, 547200, 544130, 541080, 538060, 535060, 532080, 529130, 526210, 523300, 520420, 517560, 514730, 511920, 509120, 506360, 503610, 500880, 498170, 495490, 492820, 490180, 487550, 484940, 482350, 479790, 477240, 474710, 472190, 469700, 467220, 464760, 462320, 459900, 457490, 455100, 452730, 450370, 448030, 445710, 443400, 441100, 438830, 436570, 434320, 432090, 429870, 427670, 425490, 423320, 421160, 419020, 416890, 414770, 412670, 410580, 408510, 406450, 404400, 402370, 400350, 398340, 396350, 394360, 392390, 390440, 388490, 386560, 384640, 382730, 380830, 378950, 377080, 375220, 373370, 371530, 369700, 367880, 366080, 364290, 362500, 360730, 358970, 357220, 355480, 353750, 352030, 350320, 348620, 346930, 345250, 343580, 341920, 340280, 338640, 337010, 335390, 333780, 332170, 330580, 329000, 327430, 325860, 324310, 322760, 321220, 319690, 318180, 316660, 315160, 313670, 312180, 310710, 309240, 307780, 306330, 304880, 303450, 302020, 300600, 299190, 297790, 296400, 295010, 293630, 292260, 290890, 289540, 288190, 286850, 285510, 284190, 282870, 281560, 280250, 278960, 277670, 276380, 275110, 273840, 272580, 271320, 270070, 268830, 267600, 266370, 265150, 263940, 262730, 261530, 260340, 259150, 257970, 256790, 255620, 254460, 253310, 252160, 251010, 249880, 248750, 247620, 246500, 245390, 244280, 243180, 242090, 241000, 239920, 238840, 237770, 236700, 235640, 234590, 233540, 232500, 231460]
def s3 : List Nat := [230430, 229400, 228380, 227370, 226360, 225350, 224350, 223360, 222370, 221390, 220410, 219430, 218470, 217500, 216550, 215590, 214650, 213710, 212770, 211840, 210910, 209990, 209070, 208160, 207250, 206340, 205450, 204550, 203660, 202780, 201900, 201030, 200150, 199290, 198430, 197570, 196720, 195870, 195030, 194190, 193360, 192530, 191700, 190880, 190060, 189250, 188440, 187640, 186840, 186040, 185250, 184460, 183680, 182900, 182130, 181360, 180590, 179830, 179070, 178310, 177560, 176810, 176070, 175330, 174600, 173860, 173140, 172410, 171690, 170980, 170260, 169560, 168850, 168150, 167450, 166760, 166070, 165380, 164700, 164020, 163340, 162670, 162000, 161330, 160670, 160010, 159360, 158710, 158060, 157410, 156770, 156130, 155500, 154870, 154240, 153620, 152990, 152380, 151760, 151150, 150540, 149930, 149330, 148730, 148140, 147540, 146950, 146370, 145780, 145200, 144630, 144050, 143480, 142910, 142350, 141780, 141220, 140670, 140110, 139560, 139010, 138470, 137930, 137390, 136850, 136320, 135790, 135260, 134730, 134210, 133690, 133170, 132660, 132150, 131640, 131130, 130630, 130130, 129630, 129130, 128640, 128150, 127660, 127180, 126690, 126210, 125740, 125260, 124790, 124320, 123850, 123380, 122920, 122460, 122000, 121550, 121090, 120640, 120200, 119750, 119310, 118870, 118430, 117990, 117560, 117120, 116690, 116270, 115840, 115420, 115000, 114580, 114160, 113750, 113340, 112930, 112520, 112120, 111710, 111310, 110910, 110520, 110120, 109730, 109340, 108950, 108570, 108180, 107800, 107420, 107040, 106670, 106290, 105920, 105550, 105180, 104820, 104450, 104090, 103730]
def s4 : List Nat := [103370, 103020, 102660, 102310, 101960, 101610, 101260, 100920, 100570, 100230, 99894, 99556, 99221, 98887, 98554, 98224, 97896, 97569, 97244, 96920, 96599, 96279, 95961, 95644, 95330, 95017, 94705, 94396, 94088, 93782, 93477, 93174, 92873, 92573, 92275, 91979, 91684, 91390, 91099, 90809, 90520, 90233, 89948, 89664, 89382, 89101, 88822, 88544, 88268, 87993, 87720, 87448, 87178, 86909, 86642, 86376, 86112, 85849, 85587, 85327, 85069, 84811, 84556, 84301, 84048, 83796, 83546, 83297, 83049, 82803, 82558, 82315, 82073, 81832, 81592, 81354, 81117, 80881, 80647, 80414, 80182, 79952, 79722, 79494, 79268, 79042, 78818, 78595, 78373, 78152, 77933, 77715, 77498, 77282, 77067, 76854, 76641, 76430, 76220, 76012, 75804, 75597, 75392, 75188, 74985, 74783, 74582, 74382, 74183, 73986, 73789, 73594, 73399, 73206, 73014, 72822, 72632, 72443, 72255, 72068, 71882, 71697, 71513, 71330, 71148, 70967, 70787, 70608, 70430, 70253, 70077, 69902, 69728, 69555, 69383, 69212, 69041, 68872, 68703, 68536, 68369, 68203, 68039, 67875, 67712, 67550, 67388, 67228, 67069, 66910, 66752, 66595, 66439, 66284, 66130, 65977, 65824, 65672, 65521, 65371, 65222, 65073, 64925, 64779, 64632, 64487, 64343, 64199, 64056, 63914, 63772, 63632, 63492, 63353, 63214, 63077, 62940, 62804, 62668, 62534, 62400, 62267, 62134, 62002, 61871, 61741, 61611, 61482, 61354, 61227, 61100, 60974, 60848, 60723, 60599, 60476, 60353, 60230, 60109, 59988]
def s5 : List Nat := [59868, 59748, 59629, 59511, 59393, 59276, 59160, 59044, 58929, 58814, 58700, 58587, 58474, 58362, 58250, 58139, 58029, 57919, 57809, 57701, 57593, 57485, 57378, 57272, 57166, 57060, 56956, 56851, 56748, 56645, 56542, 56440, 56338, 56237, 56137, 56037, 55938, 55839, 55740, 55642, 55545, 55448, 55352, 55256, 55160, 55065, 54971, 54877, 54783, 54690, 54598, 54506, 54414, 54323, 54232, 54142, 54052, 53963, 53874, 53786, 53698, 53610, 53523, 53437, 53351, 53265, 53179, 53095, 53010, 52926, 52842, 52759, 52676, 52594, 52512, 52430, 52349, 52268, 52188, 52108, 52028, 51949, 51870, 51792, 51714, 51636, 51559, 51482, 51405, 51329, 51253, 51178, 51103, 51028, 50953, 50879, 50806, 50732, 50659, 50587, 50515, 50443, 50371, 50300, 50229, 50158, 50088, 50018, 49949, 49879, 49810, 49742, 49673, 49605, 49538, 49470, 49403, 49337, 49270, 49204, 49138, 49073, 49007, 48943, 48878, 48814, 48750, 48686, 48622, 48559, 48496, 48434, 48371, 48309, 48248, 48186, 48125, 48064, 48003, 47943, 47883, 47823, 47763, 47704, 47645, 47586, 47527, 47469, 47411, 47353, 47296, 47238, 47181, 47124, 47068, 47012, 46955, 46900, 46844, 46789, 46734, 46679, 46624, 46570, 46515, 46461, 46408, 46354, 46301, 46248, 46195, 46142, 46090, 46038, 45986, 45934, 45882, 45831, 45780, 45729, 45678, 45628, 45577, 45527, 45477, 45427, 45378, 45329, 45280, 45231, 45182, 45133, 45085, 45037, 44989, 44941, 44894, 44846, 44799, 44752]
def s6 : List Nat := [44705, 44659, 44612, 44566, 44520, 44474, 44428, 44382, 44337, 44292, 44247, 44202, 44157, 44113, 44068, 44024, 43980, 43936, 43893, 43849, 43806, 43762, 43719, 43676, 43634, 43591, 43549, 43506, 43464, 43422, 43381, 43339, 43297, 43256, 43215, 43174, 43133, 43092, 43052, 43011, 42971, 42931, 42891, 42851, 42811, 42771, 42732, 42693, 42654, 42614, 42576, 42537, 42498, 42460, 42421, 42383, 42345, 42307, 42269, 42232, 42194, 42157, 42119, 42082, 42045, 42008, 41971, 41935, 41898, 41862, 41825, 41789, 41753, 41717, 41681, 41646, 41610, 41574, 41539, 41504, 41469, 41434, 41399, 41364, 41329, 41295, 41261, 41226, 41192, 41158, 41124, 41090, 41056, 41023, 40989, 40956, 40922, 40889, 40856, 40823, 40790, 40757, 40725, 40692, 40660, 40627, 40595, 40563, 40531, 40499, 40467, 40435, 40403, 40372, 40340, 40309, 40278, 40247, 40216, 40185, 40154, 40123, 40092, 40062, 40031, 40001, 39970, 39940, 39910, 39880, 39850, 39820, 39790, 39761, 39731, 39702, 39672, 39643, 39614, 39585, 39556, 39527, 39498, 39469, 39440, 39412, 39383, 39355, 39327, 39298, 39270, 39242, 39214, 39186, 39158, 39130, 39103, 39075, 39048, 39020, 38993, 38966, 38939, 38911, 38884, 38857, 38831, 38804, 38777, 38751, 38724, 38698, 38671, 38645, 38619, 38593, 38566, 38540, 38515, 38489, 38463, 38437, 38412, 38386, 38361, 38335, 38310, 38285, 38260, 38235, 38210, 38185, 38160, 38135, 38110, 38086, 38061, 38037, 38012, 37988]
def s7 : List Nat := [37964, 37939, 37915, 37891, 37867, 37843, 37819, 37796, 37772, 37748, 37725, 37701, 37678, 37654, 37631, 37608, 37585, 37562, 37539, 37516, 37493, 37470, 37447, 37425, 37402, 37380, 37357, 37335, 37312, 37290, 37268, 37246, 37224, 37202, 37180, 37158, 37136, 37114, 37093, 37071, 37050, 37028, 37007, 36985, 36964, 36943, 36922, 36901, 36880, 36859, 36838, 36817, 36796, 36776, 36755, 36735, 36714, 36694, 36673, 36653, 36633, 36613, 36592, 36572, 36552, 36533, 36513, 36493, 36473, 36454, 36434, 36414, 36395, 36376, 36356, 36337, 36318, 36299, 36279, 36260, 36241, 36222, 36204, 36185, 36166, 36147, 36129, 36110, 36092, 36073, 36055, 36037, 36019, 36000, 35982, 35964, 35946, 35928, 35911, 35893, 35875, 35857, 35840, 35822, 35805, 35787, 35770, 35753, 35735, 35718, 35701, 35684, 35667, 35650, 35633, 35616, 35600, 35583, 35566, 35550, 35533, 35517, 35500, 35484, 35468, 35452, 35436, 35419, 35403, 35388, 35372, 35356, 35340, 35324, 35309, 35293, 35278, 35262, 35247, 35231, 35216, 35201, 35186, 35171, 35156, 35141, 35126, 35111, 35096, 35081, 35067, 35052, 35038, 35023, 35009, 34994, 34980, 34966, 34952, 34938, 34924, 34910, 34896, 34882, 34868, 34854, 34841, 34827, 34813, 34800, 34787, 34773, 34760, 34747, 34733, 34720, 34707, 34694, 34681, 34669, 34656, 34643, 34630, 34618, 34605, 34593, 34580, 34568, 34556, 34544, 34531, 34519, 34507, 34495, 34483, 34472, 34460, 34448, 34436, 34425]
def s8 : List Nat := [34413, 34402, 34390, 34379, 34368, 34357, 34346, 34335, 34324, 34313, 34302, 34291, 34280, 34270, 34259, 34248, 34238, 34228, 34217, 34207, 34197, 34187, 34177, 34167, 34157, 34147, 34137, 34127, 34118, 34108, 34098, 34089, 34080, 34070, 34061, 34052, 34043, 34034, 34025, 34016, 34007, 33998, 33989, 33981, 33972, 33964, 33955, 33947, 33938, 33930, 33922, 33914, 33906, 33898, 33890, 33882, 33875, 33867, 33859, 33852, 33844, 33837, 33830, 33822, 33815, 33808, 33801, 33794, 33787, 33780, 33774, 33767, 33760, 33754, 33747, 33741, 33735, 33729, 33722, 33716, 33710, 33704, 33699, 33693, 33687, 33681, 33676, 33670, 33665, 33660, 33654, 33649, 33644, 33639, 33634, 33629, 33624, 33620, 33615, 33611, 33606, 33602, 33597, 33593, 33589, 33585, 33581, 33577, 33573, 33569, 33565, 33562, 33558, 33555, 33551, 33548, 33545, 33542, 33539, 33536, 33533, 33530, 33527, 33525, 33522, 33520, 33517, 33515, 33513, 33510, 33508, 33506, 33504, 33503, 33501, 33499, 33498, 33496, 33495, 33493, 33492, 33491, 33490, 33489, 33488, 33487, 33486, 33486, 33485, 33485, 33484, 33484, 33484, 33484, 33484, 33484, 33484, 33484, 33485, 33485, 33485, 33486, 33487, 33488, 33488, 33489, 33490, 33492, 33493, 33494, 33495, 33497, 33499, 33500, 33502, 33504, 33506, 33508, 33510, 33512, 33515, 33517, 33520, 33522, 33525, 33528, 33531, 33534, 33537, 33540, 33543, 33547, 33550, 33554, 33557, 33561, 33565, 33569, 33573, 33577]
def s9 : List Nat := [33581, 33586, 33590, 33595, 33600, 33604, 33609, 33614, 33619, 33624, 33630, 33635, 33641, 33646, 33652, 33658, 33663, 33669, 33676, 33682, 33688, 33694, 33701, 33708, 33714, 33721, 33728, 33735, 33742, 33749, 33757, 33764, 33772, 33780, 33787, 33795, 33803, 33811, 33820, 33828, 33836, 33845, 33854, 33862, 33871, 33880, 33889, 33899, 33908, 33917, 33927, 33937, 33946, 33956, 33966, 33976, 33987, 33997, 34007, 34018, 34029, 34039, 34050, 34061, 34073, 34084, 34095, 34107, 34118, 34130, 34142, 34154, 34166, 34178, 34191, 34203, 34216, 34228, 34241, 34254, 34267, 34280, 34294, 34307, 34321, 34334, 34348, 34362, 34376, 34390, 34405, 34419, 34434, 34448, 34463, 34478, 34493, 34508, 34524, 34539, 34555, 34570, 34586, 34602, 34618, 34635, 34651, 34667, 34684, 34701, 34718, 34735, 34752, 34769, 34786, 34804, 34822, 34839, 34857, 34875, 34894, 34912, 34930, 34949, 34968, 34987, 35006, 35025, 35044, 35063, 35083, 35103, 35123, 35143, 35163, 35183, 35203, 35224, 35245, 35265, 35286, 35307, 35329, 35350, 35372, 35393, 35415, 35437, 35459, 35481, 35504, 35526, 35549, 35572, 35595, 35618, 35641, 35665, 35688, 35712, 35736, 35760, 35784, 35809, 35833, 35858, 35882, 35907, 35933, 35958, 35983, 36009, 36035, 36061, 36087, 36113, 36139, 36166, 36193, 36220, 36247, 36274, 36302, 36330, 36358, 36386, 36415, 36445, 36475, 36506, 36538, 36574, 36615, 36668, 36763, 37073, 46937, 37730, 36946, 36862]
def s10 : List Nat := [36856, 36871, 36893, 36919, 36946, 36975, 37005, 37035, 37066, 37097, 37128, 37159, 37191, 37223, 37255, 37288, 37320, 37353, 37386, 37419, 37452, 37486, 37519, 37553, 37587, 37622, 37656, 37691, 37725, 37760, 37795, 37831, 37866, 37902, 37938, 37974, 38010, 38046, 38083, 38119, 38156, 38193, 38230, 38268, 38305, 38343, 38381, 38419, 38458, 38496, 38535, 38574, 38613, 38652, 38691, 38731, 38771, 38811, 38851, 38891, 38932, 38972, 39013, 39054, 39096, 39137, 39179, 39221, 39263, 39305, 39347, 39390, 39433, 39476, 39519, 39562, 39606, 39649, 39693, 39737, 39782, 39826, 39871, 39916, 39961, 40006, 40052, 40097, 40143, 40189, 40236, 40282, 40329, 40376, 40423, 40470, 40517, 40565, 40613, 40661, 40709, 40758, 40806, 40855, 40904, 40953, 41003, 41053, 41103, 41153, 41203, 41253, 41304, 41355, 41406, 41458, 41509, 41561, 41613, 41665, 41717, 41770, 41823, 41876, 41929, 41982, 42036, 42090, 42144, 42198, 42253, 42307, 42362, 42417, 42473, 42528, 42584, 42640, 42696, 42753, 42809, 42866, 42923, 42981, 43038, 43096, 43154, 43212, 43271, 43329, 43388, 43447, 43506, 43566, 43626, 43686, 43746, 43806, 43867, 43928, 43989, 44050, 44112, 44173, 44235, 44298, 44360, 44423, 44486, 44549, 44612, 44676, 44740, 44804, 44868, 44933, 44998, 45063, 45128, 45193, 45259, 45325, 45391, 45458, 45524, 45591, 45658, 45726, 45793, 45861, 45929, 45997, 46066, 46135, 46204, 46273, 46343, 46413, 46483, 46553]
def s11 : List Nat := [46623, 46694, 46765, 46836, 46908, 46980, 47052, 47124, 47196, 47269, 47342, 47415, 47489, 47562, 47636, 47711, 47785, 47860, 47935, 48010, 48086, 48161, 48237, 48314, 48390, 48467, 48544, 48621, 48699, 48776, 48855, 48933, 49011, 49090, 49169, 49249, 49328, 49408, 49488, 49569, 49649, 49730, 49812, 49893, 49975, 50057, 50139, 50221, 50304, 50387, 50471, 50554, 50638, 50722, 50807, 50891, 50976, 51061, 51147, 51233, 51319, 51405, 51492, 51578, 51665, 51753, 51841, 51929, 52017, 52105, 52194, 52283, 52372, 52462, 52552, 52642, 52733, 52823, 52914, 53006, 53097, 53189, 53281, 53374, 53467, 53560, 53653, 53747, 53841, 53935, 54029, 54124, 54219, 54315, 54411, 54508, 54612, 55229, 54813, 54896, 54991, 55088, 55186, 55284, 55382, 55481, 55580, 55680, 55779, 55879, 55980, 56080, 56181, 56283, 56384, 56486, 56588, 56691, 56793, 56896, 57000, 57103, 57207, 57312, 57416, 57521, 57626, 57732, 57838, 57944, 58050, 58157, 58264, 58372, 58479, 58587, 58696, 58805, 58913, 59023, 59132, 59242, 59353, 59463, 59574, 59685, 59797, 59909, 60021, 60133, 60246, 60359, 60473, 60586, 60701, 60815, 60930, 61045, 61160, 61276, 61392, 61509, 61625, 61742, 61860, 61978, 62096, 62214, 62333, 62452, 62571, 62691, 62811, 62932, 63052, 63173, 63295, 63417, 63539, 63661, 63784, 63907, 64031, 64155, 64279, 64403, 64528, 64653, 64779, 64905, 65031, 65158, 65285, 65412, 65540, 65668, 65796, 65925, 66054, 66184]
def s12 : List Nat := [66313, 66444, 66574, 66705, 66836, 66968, 67100, 67232, 67365, 67498, 67631, 67765, 67899, 68034, 68168, 68304, 68439, 68575, 68712, 68848, 68985, 69123, 69261, 69399, 69537, 69676, 69816, 69955, 70096, 70236, 70377, 70518, 70660, 70802, 70944, 71087, 71230, 71373, 71517, 71661, 71806, 71951, 72096, 72242, 72388, 72535, 72682, 72829, 72977, 73125, 73274, 73423, 73572, 73722, 73872, 74022, 74173, 74325, 74476, 74629, 74781, 74934, 75087, 75241, 75395, 75550, 75705, 75860, 76016, 76172, 76329, 76486, 76644, 76837, 76961, 77118, 77277, 77436, 77596, 77756, 77917, 78078, 78240, 78402, 78564, 78727, 78890, 79054, 79218, 79382, 79547, 79713, 79879, 80045, 80211, 80378, 80546, 80714, 80882, 81051, 81220, 81390, 81560, 81731, 81902, 82073, 82245, 82418, 82590, 82763, 82937, 83111, 83286, 83461, 83636, 83812, 83989, 84165, 84343, 84520, 84698, 84877, 85056, 85236, 85416, 85596, 85777, 85958, 86140, 86322, 86505, 86688, 86872, 87056, 87241, 87426, 87611, 87797, 87984, 88171, 88358, 88546, 88735, 88923, 89113, 89303, 89493, 89684, 89875, 90067, 90259, 90452, 90645, 90838, 91033, 91227, 91422, 91618, 91814, 92011, 92208, 92405, 92603, 92802, 93001, 93201, 93401, 93601, 93803, 94004, 94206, 94409, 94612, 94816, 95020, 95224, 95429, 95635, 95841, 96048, 96255, 96463, 96671, 96880, 97089, 97299, 97509, 97720, 97931, 98143, 98356, 98569, 98782, 98996, 99211, 99426, 99641, 99857, 100110, 100290]
def s13 : List Nat := [100510, 100730, 100950, 101170, 101390, 101610, 101830, 102050, 102270, 102490, 102720, 102940, 103160, 103390, 103610, 103840, 104070, 104290, 104520, 104750, 104980, 105210, 105440, 105670, 105900, 106130, 106360, 106590, 106830, 107060, 107300, 107530, 107770, 108000, 108240, 108480, 108710, 108950, 109190, 109430, 109670, 109910, 110150, 110400, 110640, 110880, 111130, 111370, 111610, 111860, 112110, 112350, 112600, 112850, 113100, 113350, 113600, 113850, 114100, 114350, 114600, 114850, 115110, 115360, 115620, 115870, 116130, 116380, 116640, 116900, 117160, 117420, 117680, 117940, 118200, 118460, 118720, 118980, 119250, 119510, 119780, 120040, 120310, 120570, 120840, 121110, 121380, 121650, 121920, 122190, 122460, 122730, 123000, 123280, 123550, 123840, 124100, 124370, 124650, 124930, 125210, 125480, 125760, 126040, 126320, 126610, 126890, 127170, 127450, 127740, 128020, 128310, 128590, 128880, 129170, 129450, 129740, 130030, 130320, 130610, 130900, 131200, 131490, 131780, 132080, 132370, 132670, 132960, 133260, 133560, 133860, 134160, 134460, 134760, 135060, 135360, 135660, 135970, 136270, 136580, 136880, 137190, 137500, 137810, 138110, 138420, 138730, 139040, 139360, 139670, 139980, 140300, 140610, 140930, 141240, 141560, 141880, 142200, 142510, 142830, 143160, 143480, 143800, 144120, 144450, 144770, 145100, 145420, 145750, 146080, 146410, 146730, 147060, 147400, 147730, 148060, 148390, 148730, 149060, 149400, 149730, 150070, 150410, 150750, 151090, 151430, 151770, 152110, 152450, 152800, 153140, 153490, 153830, 154180, 154530, 154880, 155230, 155580, 155930, 156280]
def s14 : List Nat := [156630, 156990, 157340, 157700, 158050, 158410, 158770, 159130, 159490, 159850, 160210, 160570, 160930, 161300, 161660, 162030, 162390, 162760, 163130, 163500, 163870, 164240, 164610, 164980, 165360, 165730, 166110, 166480, 166860, 167240, 167620, 167990, 168380, 168760, 169140, 169520, 169910, 170290, 170680, 171060, 171450, 172250, 172230, 172620, 173010, 173410, 173800, 174190, 174590, 174990, 175380, 175780, 176180, 176580, 176980, 177380, 177780, 178190, 178590, 179000, 179410, 179810, 180220, 180630, 181040, 181450, 181870, 182280, 182690, 183110, 183530, 183940, 184360, 184780, 185200, 185620, 186040, 186470, 186890, 187320, 187740, 188170, 188600, 189030, 189460, 189890, 190320, 190760, 191190, 191630, 192060, 192500, 192940, 193380, 193820, 194260, 194700, 195150, 195590, 196040, 196480, 196930, 197380, 197830, 198280, 198730, 199190, 199640, 200100, 200550, 201010, 201470, 201930, 202390, 202850, 203320, 203780, 204240, 204710, 205180, 205650, 206120, 206590, 207060, 207530, 208010, 208480, 208960, 209430, 209910, 210390, 210870, 211360, 211840, 212320, 212810, 213290, 213780, 214270, 214760, 215250, 215740, 216240, 216730, 217230, 217720, 218220, 218720, 219220, 219720, 220230, 220730, 221240, 221740, 222250, 222760, 223270, 223780, 224290, 224800, 225320, 225840, 226350, 226870, 227390, 227910, 228430, 228960, 229480, 230010, 230530, 231060, 231590, 232120, 232650, 233190, 233720, 234260, 234790, 235330, 235870, 236410, 236950, 237500, 238040, 238590, 239140, 239680, 240230, 240790, 241340, 241890, 242450, 243000, 243560, 244120, 244680, 245240, 245800, 246370]
/-- value column after the leading `inf` rows -/
def vals : List Nat := s0 ++ (s1 ++ (s2 ++ (s3 ++ (s4 ++ (s5 ++ (s6 ++ (s7 ++ (s8 ++ (s9 ++ (s10 ++ (s11 ++ (s12 ++ (s13 ++ (s14))))))))))))))

end Ripple.NoiseData.ALIGO

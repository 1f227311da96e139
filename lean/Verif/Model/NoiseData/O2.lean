/-
  Generated by tools/gen_noise.py from src/ripplegw/noise_resources/O2_ASD.dat (all 1000 rows, exact decimals).
  Frequencies in units of 1e-17 Hz, second column in units of 1e-42; `none` is `inf`.
-/
namespace Ripple.NoiseData.O2

/-- decimal exponent of the frequency column -/
def fexp : Nat := 17
/-- decimal exponent of the value column -/
def sexp : Nat := 42
def f0 : List Nat := [1000000000000000000, 1004620421346812620, 1009262190987047347, 1013925407558815373, 1018610170155975858, 1023316578330244830, 1028044732093309221, 1032794731918951392, 1037566678745185911, 1042360673976401664, 1047176819485520305, 1052015217616158615, 1056875971184804008, 1061759183483000157, 1066664958279539377, 1071593399822671167, 1076544612842315374, 1081518702552288147, 1086515774652538369, 1091535935331391549, 1096579291267809886, 1101645949633656407, 1106736018095973328, 1111849604819271065, 1116986818467823106, 1122147768207980256, 1127332563710486468, 1132541315152811556, 1137774133221491368, 1143031129114479150, 1148312414543511117, 1153618101736477897, 1158948303439810701, 1164303132920876749, 1169682703970385340, 1175087130904807609, 1180516528568804979, 1185971012337669350, 1191450698119776064, 1196955702359043450, 1202486142037412264, 1208042134677328328, 1213623798344240612, 1219231251649110703, 1224864613750931319, 1230524004359261525, 1236209543736768524, 1241921352701784009, 1247659552630869761, 1253424265461400111, 1259215613694150981, 1265033720395903138, 1270878709202058943, 1276750704319265672, 1282649830528060519, 1288576213185518071, 1294529978227915379, 1300511252173409282, 1306520162124721196, 1312556835771843389, 1318621401394748460, 1324713987866116760, 1330834724654075352, 1336983741824946570, 1343161170046015940, 1349367140588306491, 1355601785329368170, 1361865236756081998, 1368157627967471868, 1374479092677537295, 1380829765218092398, 1387209780541620319, 1393619274224142757, 1400058382468097484, 1406527242105237185, 1413025990599533621, 1419554766050101513, 1426113707194128999, 1432702953409831004, 1439322644719407229, 1445972921792019505, 1452653925946781222, 1459365799155756882, 1466108684046984401, 1472882723907502545, 1479688062686396322, 1486524844997857109, 1493393216124252554, 1500293322019218323, 1507225309310756245, 1514189325304351996, 1521185517986104863, 1528214036025870115, 1535275028780422701, 1542368646296628221, 1549495039314631661, 1556654359271061949, 1563846758302246975, 1571072389247450474, 1578331405652117247, 1585623961771137225, 1592950212572123014, 1600310313738700785, 1607704421673823703, 1615132693503090522, 1622595287078087267, 1630092360979741173, 1637624074521688300, 1645190587753662470, 1652792061464894857, 1660428657187529566, 1668100537200059108, 1675807864530768043, 1683550802961202209, 1691329517029647889, 1699144172034625910, 1706994934038407763, 1714881969870539891, 1722805447131393919, 1730765534195725053, 1738762400216250370, 1746796215127245588, 1754867149648151070, 1762975375287205893, 1771121064345087603, 1779304389918577201, 1787525525904235479, 1795784647002095724, 1804081928719382688, 1812417547374236548, 1820791680099462440, 1829204504846293844, 1837656200388171612, 1846146946324547500, 1854676923084698359, 1863246311931559873, 1871855294965579120, 1880504055128582408, 1889192776207666213, 1897921642839100542, 1906690840512251839, 1915500555573527919, 1924350975230331429, 1933242287555045280, 1942174681489025545, 1951148346846616377, 1960163474319185539, 1969220255479172366, 1978318882784164146, 1987459549580982809, 1996642450109793288, 2005867779508233895, 2015135733815557373, 2024446509976803910, 2033800305846980905, 2043197320195270450, 2052637752709252084, 2062121803999143665, 2071649675602068896, 2081221569986338338, 2090837690555749973, 2100498241653915343, 2110203428568595641, 2119953457536071184, 2129748535745519789, 2139588871343421417, 2149474673437980599, 2159406152103566612, 2169383518385184217, 2179406984302954697, 2189476762856620695, 2199593068030074861, 2209756114795901993, 2219966119119954939, 2230223297965937590, 2240527869300018082, 2250880052095461892, 2261280066337278427, 2271728133026904928, 2282224474186897467, 2292769312865648601, 2303362873142131306, 2314005380130652867, 2324697059985647840, 2335438139906479194, 2346228848142262535, 2357069413996727647, 2367960067833077531, 2378901041078893286, 2389892566231050353, 2400934876860651812, 2412028207618006803, 2423172794237599348, 2434368873543110467, 2445616683452446694, 2456916462982790250, 2468268452255692580, 2479672892502158987, 2491130026067788350, 2502640096417919224]
def f1 : List Nat := [2514203348142796557, 2525820026962784581, 2537490379733570478, 2549214654451423101, 2560993100258459521, 2572825967447933593, 2584713507469563609, 2596655972934870960, 2608653617622547927, 2620706696483852483, 2632815465648021203, 2644980182427719839, 2657201105324505264, 2669478494034320804, 2681812609453015739, 2694203713681883627, 2706652070033241131, 2719157943036017500, 2731721598441376386, 2744343303228365372, 2757023325609583964, 2769761935036891032, 2782559402207124322, 2795415999067856561, 2808331998823172526, 2821307675939472048, 2834343306151309250, 2847439166467246352, 2860595535175741944, 2873812691851066248, 2887090917359236286, 2900430493863991543, 2913831704832787040, 2927294835042815890, 2940820170587063842, 2954407998880381214, 2968058608665602449, 2981772290019671701, 2995549334359813187, 3009390034449721085, 3023294684405777843, 3037263579703311578, 3051297017182869453, 3065395295056526592, 3079558712914226604, 3093787571730138453, 3108082173869063780, 3122442823092856301, 3136869824566876375, 3151363484866479325, 3165924111983522238, 3180552015332919780, 3195247505759212103, 3210010895543171472, 3224842498408442282, 3239742629528197426, 3254711605531848306, 3269749744511766210, 3284857366030043835, 3300034791125285238, 3315282342319424913, 3330600343624588788, 3345989120549972995, 3361449000108765262, 3376980310825091181, 3392583382740993869, 3408258547423452001, 3424006137971424124, 3439826489022924250, 3455719936762139355, 3471686818926561102, 3487727474814177242, 3503842245290673674, 3520031472796679139, 3536295501355042603, 3552634676578141182, 3569049345675229290, 3585539857459816915, 3602106562357069919, 3618749812411280686, 3635469961293319585, 3652267364308175246, 3669142378402494131, 3686095362172157763, 3703126675869926743, 3720236681413067714, 3737425742391064176, 3754694224073336528, 3772042493416997644, 3789470919074667421, 3806979871402285909, 3824569722466998911, 3842240846055060643, 3859993617679766942, 3877828414589457395, 3895745615775503268, 3913745601980384237, 3931828755705770106, 3949995461220643023, 3968246104569481503, 3986581073580440915, 4005000757873611406, 4023505548869292880, 4042095839796306223, 4060772025700365617, 4079534503452450878, 4098383671757261482, 4117319931161679136, 4136343684063273685, 4155455334718875093, 4174655289253136914, 4193943955667186430, 4213321743847289014, 4232789065573548726, 4252346334528682092, 4271993966306779100, 4291732378422157268, 4311561990318228510, 4331483223376398684, 4351496500925049560, 4371602248248504452, 4391800892596086214, 4412092863191190162, 4432478591240396071, 4452958509942655496, 4473533054498465589, 4494202662119142389, 4514967772036101934, 4535828825510186135, 4556786265841063965, 4577840538376618440, 4598992090522438048, 4620241371751313153, 4641588833612777165, 4663034929742731549, 4684580115873047390, 4706224849841281355, 4727969591600390942, 4749814803228499471, 4771760948938745628, 4793808495089109556, 4815957910192350511, 4838209664925957298, 4860564232142133534, 4883022086877879531, 4905583706365047902, 4928249570040513561, 4951020159556351530, 4973895958790062366, 4996877453854883555, 5019965133110081723, 5043159487171358535, 5066461008921268672, 5089870193519679731, 5113387538414325917, 5137013543351341127, 5160748710385907856, 5184593543892913203, 5208548550577660308, 5232614239486662200, 5256791122018422158, 5281079711934330589, 5305480525369573996, 5329994080844087989, 5354620899273607648, 5379361503980700121, 5404216420705915169, 5429186177618942821, 5454271305329833552, 5479472336900287388, 5504789807854970718, 5530224256192899901, 5555776222398877451, 5581446249454963748, 5607234882852032598, 5633142670601354496, 5659170163246242424, 5685317913873753071, 5711586478126432098, 5737976414214134024, 5764488282925876206, 5791122647641758192, 5817880074344935082, 5844761131633634932, 5871766390733255747, 5898896425508496577, 5926151812475552560, 5953533130814370367, 5981040962380941295, 6008675891719686746, 6036438506075867139, 6064329395408061885, 6092349152400711887, 6120498372476699700, 6148777653810022770, 6177187597338491543, 6205728806776500761, 6234401888627863997, 6263207452198689396, 6292146109610344240]
def f2 : List Nat := [6321218475812451487, 6350425168595962333, 6379766808606282069, 6409244019356454203, 6438857427240419895, 6468607661546327847, 6498495354469888241, 6528521141127846761, 6558685659571432325, 6588989550799949768, 6619433458774395262, 6650018030431118632, 6680743915695614987, 6711611767496283676, 6742622241778342129, 6773775997517752501, 6805073696735206568, 6836516004510238531, 6868103588995303710, 6899837121430017817, 6931717276155407603, 6963744730628222612, 6995920165435374827, 7028244264308348477, 7060717714137773271, 7093341204987996207, 7126115430111745752, 7159041085964888396, 7192118872221189463, 7225349491787214617, 7258733650817252681, 7292272058728312345, 7325965428215229736, 7359814475265767442, 7393819919175865607, 7427982482564918598, 7462302891391108517, 7496781874966876558, 7531420165974371628, 7566218500481055287, 7601177617955330845, 7636298261282242095, 7671581176779302780, 7707027114212299068, 7742636826811269657, 7778411071286490142, 7814350607844542651, 7850456200204509116, 7886728615614151749, 7923168624866254106, 7959777002314986305, 7996554525892345566, 8033501977124734594, 8070620141149503013, 8107909806731686331, 8145371766280744907, 8183006815867389605, 8220815755240541023, 8258799387844267414, 8296958520834907347, 8335293965098195201, 8373806535266488993, 8412497049736118981, 8451366330684717809, 8490415204088746748, 8529644499741024788, 8569055051268347256, 8608647696149245121, 8648423275731721560, 8688382635251184638, 8728526623848379984, 8768856094587427208, 8809371904473991322, 8850074914473434262, 8890965989529158264, 8932045998580969126, 8973315814583520478, 9014776314524917211, 9056428379445289067, 9098272894455558912, 9140310748756232329, 9182542835656282421, 9224970052592173886, 9267593301146878559, 9310413487069075700, 9353431520292386381, 9396648314954690306, 9440064789417603208, 9483681866285922979, 9527500472427290390, 9571521538991865441, 9615746001432096079, 9660174799522646083, 9704808877380301624, 9749649183484086734, 9794696670695395824, 9839952296278231358, 9885417021919573699, 9931091813749794994, 9976977642363200971, 10023075482838653730, 10069386314760271260, 10115911122238297540, 10162650893929951220, 10209606623060464870, 10256779307444219280, 10304169949505875080, 10351779556301762850, 10399609139541203720, 10447659715608041610, 10495932305582276460, 10544427935261684580, 10593147635183700570, 10642092440647246580, 10691263391734760550, 10740661533334333910, 10790287915161836450, 10840143591783309770, 10890229622637305340, 10940547072057424320, 10991097009294972510, 11041880508541602520, 11092898648952227350, 11144152514667881350, 11195643194838783070, 11247371783647518840, 11299339380332216360, 11351547089209989850, 11403996019700331030, 11456687286348714850, 11509622008850323030, 11562801312073753480, 11616226326085018170, 11669898186171474210, 11723818032865985120, 11777987011971193000, 11832406274583780710, 11887076977119032510, 11942000281335324980, 11997177354358842650, 12052609368708425560, 12108297502320394300, 12164242938573680420, 12220446866314887300, 12276910479883591170, 12333634979137760010, 12390621569479156960, 12447871461879061880, 12505385872903913480, 12563166024741214240, 12621213145225473800, 12679528467864339800, 12738113231864784320, 12796968682159416630, 12856096069432965120, 12915496650148838850, 12975171686575868080, 13035122446815088890, 13095350204826675620, 13155856240457052310, 13216641839466052490, 13277708293554289300, 13339056900390588110, 13400688963639507280, 13462605792989108980, 13524808704178752810, 13587299019027091160, 13650078065460138530, 13713147177539457290, 13776507695490550990, 13840160965731314490, 13904108340900697270, 13968351179887397960, 14032890847858732290, 14097728716289677210, 14162866162991988970, 14228304572143520090, 14294045334317610240, 14360089846512607890, 14426439512181588040, 14493095741262166600, 14560059950206485270, 14627333562011298800, 14694918006248173010, 14762814719093910300, 14831025143361043210, 14899550728528535610, 14968392930772554910, 15037553212997383410, 15107033044866557250, 15176833902834053450, 15246957270175730060, 15317404637020797510, 15388177500383463330, 15459277364194784350, 15530705739334601390, 15602464143663678440, 15674554102055950010, 15746977146430867830, 15819734815786014790]
def f3 : List Nat := [15892828656229778520, 15966260221014252350, 16040031070568198860, 16114142772530198040, 16188596901781991730, 16263395040481921680, 16338538778098603640, 16414029711444663920, 16489869444710649300, 16566059589499153050, 16642601764859034570, 16719497597319883650, 16796748720926532880, 16874356777273757760, 16952323415541212630, 17030650292528443400, 17109339072690133320, 17188391428171456710, 17267809038843560640, 17347593592339325140, 17427746784089191580, 17508270317357232670, 17589165903277324790, 17670435260889465210, 17752080117176359410, 17834102207100082180, 17916503273638994640, 17999285067824763470, 18082449348779516640, 18165997883753286150, 18249932448161524690, 18334254825622889480, 18418966807997108500, 18504070195423020100, 18589566796356882610, 18675458427610760740, 18761746914391196130, 18848434090337954670, 18935521797562952880, 19023011886689457130, 19110906216891379470, 19199206655932829340, 19287915080207775990, 19377033374779890100, 19466563433422632560, 19556507158659491100, 19646866461804444270, 19737643263002553340, 19828839491270713320, 19920457084538713840, 20012497989690371010, 20104964162604969150, 20197857568198784860, 20291180180466781740, 20384933982524643170, 20479120966650853570, 20573743134329114920, 20668802496290820160, 20764301072557748280, 20860240892485049360, 20956623994804328960, 21053452427667039610, 21150728248687946120, 21248453524988829600, 21346630333242455890, 21445260759716674670, 21544346900318822690, 21643890860640203750, 21743894756000798910, 21844360711494283580, 21945290862033135680, 22046687352394076240, 22148552337263592450, 22250887981283693760, 22353696459097966450, 22456979955397738990, 22560740664968591320, 22664980792736929520, 22769702553816799200, 22874908173557039960, 22980599887588510910, 23086779941871674280, 23193450592744275700, 23300614106969246110, 23408272761782941980, 23516428844943484930, 23625084654779450940, 23734242500238661930, 23843904700937204670, 23954073587208793580, 24064751500154241630, 24175940791691283490, 24287643824604504060, 24399862972595502700, 24512600620333398640, 24625859163505467110, 24739641008868116500, 24853948574297984920, 24968784288843266950, 25084150592775412750, 25200049937640920920, 25316484786313529300, 25433457613046482490, 25550970903525069390, 25669027154919518810, 25787628875938008830, 25906778586880062680, 26026478819690044020, 26146732118010919520, 26267541037238385120, 26388908144575106010, 26510836019085360250, 26633327251749807370, 26756384445520450300, 26880010215376074710, 27004207188377728240, 27128978003724643030, 27254325312810277640, 27380251779278574990, 27506760079080675040, 27633852900531695700, 27761532944367979780, 27889802923804393230, 28018665564591952940, 28148123605075812750, 28278179796253408540, 28408836901833012690, 28540097698292373710, 28671964974937696980, 28804441533962977930, 28937530190509505700, 29071233772725753400, 29205555121827450190, 29340497092157869470, 29476062551248588760, 29612254379880346280, 29749075472144403420, 29886528735503827650, 30024617090855491600, 30163343472591969880, 30302710828663964550, 30442722120643026070, 30583380323784314210, 30724688427090035250, 30866649433372742810, 31009266359319263980, 31152542235554881240, 31296480106707502960, 31441083031472646780, 31586354082678190030, 31732296347349762300, 31878912926776456520, 32026206936576500080, 32174181506763716240, 32322839781813809170, 32472184920731285730, 32622220097116701250, 32772948499233820030, 32924373330077690980, 33076497807442427760, 33229325163989716430, 33382858647317607390, 33537101520029290210, 33692057059802669980, 33847728559459829970, 34004119327037062700, 34161232685855281940, 34319071974590428910, 34477640547344640250, 34636941773717342130, 34796979038876912680, 34957755743632753820, 35119275304507277720, 35281541153808831270, 35444556739704353280, 35608325526292776430, 35772850993678736130, 35938136638046256620, 36104185971733375030, 36271002523306481180, 36438589837635441880, 36606951475969026430, 36776091016010309430, 36946012051993022850, 37116718194757669380, 37288213071828334930, 37460500327489927490, 37633583622865324970, 37807466635993489490, 37982153061907359870, 38157646612712483150, 38333951017666015560, 38511070023255689420, 38689007393279757710, 38867766908926677160, 39047352368855598570, 39227767589277192430, 39409016404034474590, 39591102664684586900, 39774030240580367490]
def f4 : List Nat := [39957803018952694170, 40142424904993220030, 40327899821937052140, 40514231711146470620, 40701424532194386070, 40889482262948644120, 41078408899656466250, 41268208457029516010, 41458884968329113010, 41650442485451850420, 41842885079015843530, 42036216838447137430, 42230441872066722910, 42425564307177768340, 42621588290153249550, 42818517986524153680, 43016357581067950380, 43215111277897619860, 43414783300550925560, 43615377892080056200, 43816899315141944270, 44019351852088743730, 44222739805058972710, 44427067496068826810, 44632339267103975540, 44838559480211910110, 45045732517594586850, 45253862781701667470, 45462954695323992380, 45673012701687468960, 45884041264547613540, 46096044868284337780, 46309028017997371760, 46522995239601891630, 46737951079924636130, 46953900106800625740, 47170846909170171560, 47388796097176509650, 47607752302263679670, 47827720177274852630, 48048704396551340780, 48270709656031829130, 48493740673352328940, 48717802187946307410, 48942898961145317570, 49169035776280310300, 49396217438783207850, 49624448776289136730, 49853734638738939110, 50084079898482121960, 50315489450380567860, 50547968211912404970, 50781521123276706930, 51016153147498334870, 51251869270533325110, 51488674501374975990, 51726573872160190600, 51965572438276569760, 52205675278469755090, 52446887494951192820, 52689214213506772920, 52932660583605616010, 53177231778509667490, 53422932995383519030, 53669769455404764360, 53917746403875048600, 54166869110331515460, 54417142868658879710, 54668572997201806630, 54921164838877894000, 55174923761291290700, 55429855156846690530, 55685964442864087690, 55943257061693770990, 56201738480831875220, 56461414193036728190, 56722289716445436620, 56984370594691358750, 57247662397021781540, 57512170718416132330, 57777901179705065720, 58044859427689777930, 58313051135262185200, 58582482001525363560, 58853157751914500300, 59125084138318811710, 59398266939203563200, 59672711959733101140, 59948425031894089440, 60225412014619280400, 60503678793912240510, 60783231282972303690, 61064075422320365760, 61346217179925065470, 61629662551329420240, 61914417559778473790, 62200488256347114200, 62487880720068881150, 62776601058065000420, 63066655405674055150, 63358049926582543780, 63650790812955710860, 63944884285569366970, 64240336593941913180, 64537154016467013660, 64835342860547268630, 65134909462728023750, 65435860188832293720, 65738201434095856260, 66041939623303051120, 66347081210923511210, 66653632681249132470, 66961600548532157970, 67270991357123364200, 67581811681611100080, 67894068126961121830, 68207767328656848350, 68522915952840571660, 68839520696454962940, 69157588287385249260, 69477125484602402140, 69798139078306599000, 70120635890071764610, 70444622772990373960, 70770106611818891910, 71097094323124383660, 71425592855431261800, 71755609189369215530, 72087150337821356060, 72420223346073157700, 72754835291962331210, 73090993286029106460, 73428704471667583680, 73767976025277312150, 74108815156415698770, 74451229107951428430, 74795225156218214120, 75140810611169615640, 75487992816534313080, 75836779149971903280, 76187177023229992300, 76539193882301481150, 76892837207583056620, 77248114514034000420, 77605033351335714540, 77963601304052372140, 78323825991791966320, 78685715069368438890, 79049276226964207130, 79414517190293395290, 79781445720766294020, 80150069615654047080, 80520396708254702390, 80892434868059376640, 81266192000919454590, 81641676049214720480, 82018894992022035240, 82397856845285116380, 82778569661984727190, 83161041532309616290, 83545280583828719050, 83931294981663643280, 84319092928662507800, 84708682665574019670, 85100072471222460990, 85493270662683846690, 85888285595462491530, 86285125663668873130, 86683799300197733830, 87084314976907239720, 87486681204799140230, 87890906534199541510, 88296999554940828150, 88704968896544028210, 89114823228402019590, 89526571259964009640, 89940221740920446790, 90355783461389205510, 90773265252102237350, 91192675984592983700, 91614024571385209580, 92037319966182212740, 92462571164057339960, 92889787201644981000, 93318977157332392380, 93750150151452896810, 94183315346479514570, 94618481947219925130, 95055659201011917500, 95494856397919659230, 95936082870931466000, 96379347996157855500, 96824661193031238330, 97272031924505370170, 97721469697257248300, 98172984061888405450, 98626584613128204640, 99082280990037975240, 99540082876215183210, 100000000000000000000]
/-- frequency column -/
def freqs : List Nat := f0 ++ (f1 ++ (f2 ++ (f3 ++ (f4))))
/-- number of leading rows whose value is `inf` -/
def ninf : Nat := 88
def s0 : List Nat := [973664573781345706000, 934590529610069684600, 1022894833651501117000, 890600776923963532500, 876332796897560999500, 819458831026836563400, 816193658577680285000, 793645944062555518200, 813548133953985095900, 744947723606095944600, 769261859695310702400, 751500440443529874500, 729816316784536718000, 719852482882195360400, 710797856838927380400, 699344417905511549000, 691998776429416780600, 664658189202194663600, 656036178209430159100, 642532954679714152400, 638743254534355978400, 612427734986146601400, 606274688139406343100, 619682741435939987200, 584714386059741314200, 579085414411538305300, 571513036455193750400, 566249079317158253700, 559217733651551158000, 544130109331724927500, 522899477943103470200, 528673966833545295500, 532063327724216753900, 545484609626005391600, 551104276720485040300, 557253994434539892100, 503068645534064726000, 603465067294148014000, 450054275323522568900, 489651904751642003100, 479377368040978530300, 457633747047033498500, 441284682715945034700, 431878973988211735000, 409264550083361128700, 411233035113835879800, 381705005971543416100, 376540468103481870900, 370423003981874582000, 363742547804958547100, 356072174483011414000, 348629943366301278300, 332641506329637717000, 327137763018836548200, 321354327707065558600, 314712022114749237200, 297290213976401725000, 303160627251991840700, 289085140396218800800, 282790267974258616500, 277717083399820418400, 265025940749951248900, 262630033422215280400, 257440087400902959100, 247226225052217781300, 240145865249534428900, 236130743921798743800, 232288429070138424500, 233200336300633505700, 223087337841163552600, 212113802842587218700, 213729920945406448200, 208610404224265676100, 209919446087348116900, 208491533045384902200, 196172271545796885800, 188025939095568885700, 181271734107866593700, 180407155665259478300, 172215431301148768100, 162642883958684783400, 164451270459605831200, 144737985040296182900, 129343495130097903300, 124288063416629652400, 121406036220304967400, 122274693628801310100, 119759047458556929300, 127431683399216559100, 119169598754884844200, 148777940728945066400, 110042863767239699200, 98352522301070879570, 90316628632253282270, 92196733391786261450, 96354765303860778060, 89269719646875564380, 79550693488133306830, 71458108355533520330, 71461738883103616360, 76149057091719094160, 133335671415608564500, 69612085852766101360, 62908724219211877050, 58211959185288901370, 58000649092924360780, 52726137259637874290, 52004127441594363370, 49697050843572018530, 48242507519836873510, 47340395008591780400, 46796831739422693690, 45740370303976238530, 44729860147446322050, 43324562281908478860, 42398191446245388800, 41703958677210050830, 40645436630935738950, 40220278172856976140, 40094789633152985780, 39237470043761593650, 38652956006910032140, 38343896373886412290, 36793544986701782880, 36149935647556023550, 37190387089320314820, 36295797411041840770, 36167640308145391550, 36338448064983189500, 36554606409211181230, 55375779094983261890, 42509691853223001580, 35715665382431371720, 36121834089323734210, 38301533443970366190, 35869511685623365580, 36172240321685898290, 31174955277021656150, 36948347282926561720, 32916688144857902500, 29520520106029430780, 29666473231481080410, 29412251802717100000, 28602820707305262620, 28838575655621221490, 29027948738014445010, 28335739276282526520, 27574950750945863660, 28639632355760083620, 27707920656461005460, 27250705455100735930, 26475032815474252220, 25631951091220143760, 25757765450979763860, 24582381826649765480, 24519706986163713590, 23725008650767595130, 23072441171440333990, 22607862858312967990, 22966909673628513840, 22792953816057679980, 21649555115893951370, 22274947731067139290, 21873660909729584200, 20835956976068603560, 20911469702663226530, 20588192340463169290, 20313278238406537800, 19632469234358456150, 19604088106328058220, 19311277939599330770, 19298494261774288790, 18800228561985273120, 18378099549481233590, 18215648411522446450, 17892998244073957360, 17865023751765933340, 17781308055599256300, 17726422544601343400, 17510526990220986590, 17237719064563382310, 17297159066453704820, 16638486040603944290, 16349476733689511900, 16770556293811991580, 16306748484601050720, 16374763411347247260, 16078117309070139560, 17862035491440648090, 15954705236234416790, 16247737933133987890, 15157554809736031880, 15568707277745305330, 15556707823821036320, 15274341739553351370, 15015044319452510670, 14840160683985405880, 14674361256876300470, 14165455516405587600, 14800414954593143960]
def s1 : List Nat := [14556084540984682910, 14567601707618878690, 14370020607260204900, 15027769336517177030, 14255453902720387180, 14417625103828273280, 14268099227841917090, 14395887220416686960, 13847817341920096370, 14053434588834028920, 14370992972138843700, 14020195600945708730, 14002002200062569830, 13865910233591031680, 13723224350878666610, 13844173252500308400, 13623383160004105080, 13881057570999024880, 13589137797987937220, 13741025751394160870, 13043990575038090170, 13583815964777949730, 13333227607685806010, 12845196070467963560, 12876773998524678290, 12838692518664723400, 12965695416566184580, 13113274584794770270, 13418955471134127960, 12628970153893884500, 12487877854438963070, 12581701321617661540, 12355644140494960500, 12181274697744973940, 12117289431795973790, 11889680263039832710, 15640095914109225690, 11901580946167809440, 11751121509228512930, 11568738012967356320, 11243048058560169690, 11558335418702106180, 11588773665972725090, 11283001292156883690, 11402186990753282030, 11715827883740948750, 11304588861257626270, 11357639403825349910, 11377231001730175940, 11173440044626968100, 11217882069647029320, 11230208198317058300, 11281757722962492210, 11137558005108455850, 11524298101637206540, 11295202790667278650, 10972683323186757140, 11139989817476840380, 10817951147524258400, 11259353593881043780, 10745536753795922220, 10885366918770816990, 11144145078190464200, 10767181626394428850, 10745830394377181650, 10766113969672486770, 10379027373789478050, 10352474622868109270, 10227433657583984130, 10359838749371702740, 10204205624803812350, 10339854195205729720, 10400641888964970170, 10152168627008165110, 10462613618659107040, 10313442611084068070, 10703769130442370040, 11232625949060778590, 11139503403149741390, 10857264150802590620, 11273915890224531130, 11369144390795092310, 10999808900435073950, 10812563590491531090, 11025798294130971100, 10915260434241641920, 10919760090944502310, 10890493794562799590, 11161306884368761820, 10946434086424836400, 10839379005871115150, 11131791093406053590, 11142360510655317450, 11289516685602179720, 12301376792574487850, 12243599604095044980, 12412399736089765990, 11840314418865543070, 11526693633704678880, 13580882993984550120, 13705454649548970910, 12889950671366838140, 11643845052879149870, 10629862297546705520, 10355649992791652940, 10530166727660790490, 10203970625955135360, 10469197869897038680, 9982227136636401778, 9924526101800169925, 10175501672222429020, 10072153455341428050, 10156569596393014090, 10037092493086910240, 10021965354921627430, 10258450578391387420, 10241672748040183890, 10333296835241462350, 10359681643563471360, 10150161732431458560, 10243264433065927050, 10350774954380053650, 10182380368059246620, 9985938026270475555, 10092024511779323150, 9988115009398336587, 9737915127010150169, 9736008420884554049, 9756361529809988460, 9698382252459737365, 9635860501479261008, 9364484435515232055, 9254491388473485930, 9293052329806874760, 9200337556568218605, 8905105539064189379, 8980389523014805214, 8969414042343631505, 8557198436910033181, 8735403739806635182, 8660546668434802050, 8752581836453083297, 8604098251124906887, 8336932988210250789, 8564473998990287011, 8362384681345048896, 8224835774553772732, 8238382257888211880, 8290160496008496752, 8147999185312059779, 8163222520803873789, 8262353956306084174, 8292289532631870554, 8241855484585324571, 8324256211359801334, 8342448411452923712, 8293416108288747212, 8184503560804189208, 8180128579789854449, 8276637955069090354, 8001427802205984351, 8058513909623198289, 8016059044249386407, 8119876518242667020, 7971888440517297651, 8255180198083120865, 8217296237176888648, 8057427381120810733, 8315325342791160255, 8327195591838765123, 8395339480956556409, 8061833282782876101, 8245617308759544611, 8130615930683003884, 7929124955110294629, 7890186121627266800, 8081142353090840676, 7806685286011011655, 7783501490345244917, 7850222191805529637, 7585926189150726639, 7564679238544528121, 7429369970917393746, 7546244062770445142, 7431254737023389219, 7330684872030442911, 7452388559124832026, 7552970897523724715, 7492416994554495972, 7397627507184209452, 7447034917438278614, 7574379075659148239, 7658302886179568609, 7857512906040218192, 7755608107955912079, 7602454628782077751, 7567436278049689950, 7542646307056269556, 7372111795521154601, 7393200768421914182]
def s2 : List Nat := [7505809811095506623, 7305220442474034962, 7317702796702126287, 7149833349202648548, 7270370607430715537, 7275942208613998417, 7134714466887884580, 7122168474953182288, 7170509398133112759, 7057673202226871449, 7209156115345760657, 7115700997375468634, 7128543341039857907, 7149526728207233461, 6948655585148180445, 6960121331542784252, 6906762422369389918, 7056530137735995634, 6983056046129735664, 6902123205804423789, 6975636948626496346, 6976995098437101658, 6975506136986500782, 7030954891250456998, 6818667414711261906, 6916006319585621039, 6937852365779675467, 6847143330499413367, 6803242875680880741, 6867190506600243947, 6867418898546139448, 6789897167014684610, 6933517169152345531, 6885561336905475209, 6885669800637310527, 6875046161929811994, 6784487413342826840, 6893855312303966058, 6912985326996853299, 6707026381047988041, 6844396787334562436, 6864961589166396364, 6779774831776791466, 6778493630229661950, 6996843656732738404, 7037468523298719956, 6982895981467510145, 6792457681341436188, 7028791450638074209, 7067961225239703280, 6957549513295046978, 7001321167056429372, 6983120699467944374, 6833842327230764428, 6743896875427131225, 6710025194263738920, 6720323726874834275, 6911520279358236370, 6703004992297569959, 6608985924096973065, 6816518258747939788, 6835703754369023012, 6692323082697819737, 6583101980400418185, 6787618496176460850, 6627488806990363237, 6698943384588581274, 6660480850465053190, 6574061785623309791, 6634380383888218948, 6518042146031228757, 6727422683797539748, 6682258110840229326, 6700192895931908648, 6543806940227588788, 6660478298124294664, 6615052155316369766, 6714053090640880471, 6698446188067236667, 6658868488990553173, 6747171459613517802, 6689190549061780163, 6660797708652334905, 6861950624802297969, 6839852861328921804, 6908059413651174560, 6814296631772769061, 6715612274656341876, 6672754858863676448, 6599507149053183751, 6739576022234275031, 6500780979482637233, 6630328866491230761, 6598487833000145103, 6712475597865861897, 6677916102155261862, 6576583556213062757, 6587000459349896692, 6564212481572109274, 6539181823141134911, 6426225615700693275, 6571823416072536186, 6488322243599286254, 6469210628301620114, 6484412394517280725, 6464588110420432156, 6448012499894196034, 6610846807004347970, 6623290070997764894, 6475147194513540828, 6475088820707779200, 6515103893928665203, 6533786630114202951, 6559335277111186239, 6581898616192708181, 6475874521977201334, 6494770086224960056, 6507370339861886519, 6477112647793302285, 6397698217735569887, 6449711393547411885, 6503815338982066279, 6467300783279171463, 6491730716071029050, 6416398167651583892, 6450974950477196609, 6539939000140106073, 6450323343715580992, 6261103483962313898, 6460297423889863329, 6351233513418481894, 6521305021814905400, 6437122721092255607, 6478001929918980452, 6378141748620697519, 6438847502781749126, 6512482753341560579, 6554461315189388091, 6535087177357731068, 6980195842794369679, 6531768355694055527, 6326758943816833987, 6358285427435036814, 6407328437717564664, 6370654516691734676, 6497685297545816512, 6480190625933802288, 6516837035401424134, 6409578872400852038, 6286972413438397321, 6472701215177034735, 6419965516345521037, 6357626763854185370, 6528151948018898445, 6559610306896571047, 6488275756489793521, 6466579511976882606, 6441559401070550723, 6401383564974076281, 6778808687227935413, 6549632370523732571, 6481110353066430101, 6429095230925407891, 6433006533686500515, 6494675170813347635, 6402354151413688170, 6467033384577010998, 6523920788926246219, 6478196010009524327, 6467035639627323900, 6408111324309928547, 6477018092117758052, 6421239202853734081, 6487702701993978854, 6592394403944856276, 6433206288371142440, 6412483295582674968, 6417271769851023801, 6450639664644544992, 6482402711098242768, 6436366072864590252, 6508871082735048387, 6371546683430197460, 6408089235536589327, 6421748393196428968, 6592156755081823097, 6632231561577535159, 6608797295572683667, 6538144069045349523, 6653825323710326589, 6634568404721216931, 6476438962621892088, 6575193833890577197, 6531431862353056598, 6398528149327527356, 6514892268879956813, 6681972951465586957, 6520484709332588750, 6501764731447925745, 6562028863280792139]
def s3 : List Nat := [6550099805374762352, 6665177626798253065, 6636618706161146082, 6612173113788566706, 6559275376451186758, 6504780823088476303, 6591754016943458610, 6692284067809065350, 6788180780482649878, 6619035069287375337, 6585387776183012963, 6754060000467581858, 6670167325141474867, 6655005575462307062, 6738608024379672616, 6693387618959647738, 6638198830620135246, 6653600922926912673, 6739692487717209408, 6657165159135445906, 6648996165149391515, 6788291905350747394, 6728020189977759306, 6734672218260802605, 6762187425295244370, 6747070439484834535, 6770286903483049962, 6898366574130053177, 6965542449030738313, 6888471350075987421, 6930474194946026806, 6976737803362935085, 7065490492089704826, 6982364147702230008, 7149142613270401108, 7107094065097122053, 7078644003182847766, 6845550198278914103, 7009767279627113244, 6994010013398223418, 6761650185726164745, 6912938832212012814, 6977310779378554785, 6957651269804356627, 7068220099194185815, 6909706701059291235, 7114160822065943211, 6946421954270396541, 7090104110122503130, 7091733518387474508, 6877056324594392338, 7066432087207808445, 7184143012917114760, 7162739651708585895, 7222593196004037482, 7310371113053344527, 7305923568659337976, 7154554931905195094, 7252973942723796101, 7161942786923261884, 7302560860942842161, 7316622898113934445, 7302825333108807815, 7339307013388777473, 7309277568533547363, 7337918406034501059, 7336908139257877652, 7299036505035183152, 7339310021448102621, 7351131387603418613, 7302076168214719342, 7995085440158057733, 7778687346312059931, 7292422324092911679, 7309489893158348702, 7201454945648429950, 7477954600950050347, 7505334519519657565, 7383379486328165594, 7595246301462730048, 7661024636607598240, 7672416363170737044, 7605626807659698810, 7529226513183570917, 7650683510955354010, 7670179807654026049, 7794411380208120335, 7813631577446330678, 7790530250206568276, 7719519002297223158, 7643193748736072892, 7825308290658439840, 7567325066652072064, 7679665114591317111, 7740198377530843309, 7682961395959167444, 7669531502014863277, 7771656075687383680, 7799805488695484202, 7778576893049071042, 7825096999487499722, 7905772913715677645, 7780446354886819756, 7808820217502240793, 7759053781299297280, 7647090730624260478, 7852789491927660193, 7858237135422702647, 7807552383531674705, 7869226798119580971, 7906973985567978351, 8033705979479486631, 7762723314610078908, 7800695202309846542, 7898198906785914186, 7898468100636287229, 7922738082231235174, 8017069062526603968, 7953590157496087826, 8029447000120076505, 8120304457972618803, 8133742291294765101, 8083325377299155277, 8043302729232841420, 8225557695688960663, 8129072725136042622, 8151832613381659332, 8196740327382324765, 8208122322113796930, 8251292281325849147, 8414803064143543353, 8278611777243703808, 8232920594399738181, 8361995210097438548, 8186806532531102335, 8348553900047990142, 8379452228726298852, 8368320567831703963, 8494974874926152922, 8480505274725969793, 8644053290163566233, 8739023167885334768, 8536788437653929658, 8608578300204293065, 8457489058815673456, 8585057076041668076, 8508253247981187856, 8598934296814073408, 8545260509997266259, 8643689475949279415, 8509664758291236029, 8658488284207583956, 8623884981768420864, 8768987324144261673, 8612133057089935760, 8716908074646263249, 8943502119583415028, 8727844107707866525, 8830468196209380382, 8820424263083879674, 8893761669717959447, 8984230591537436541, 15063531768664536670, 9250958315061671940, 9202999811628657814, 9256283992839695203, 9013922280167688047, 9181392779734906219, 9008190447972036348, 9289426664088006786, 9230449563511166376, 8922798478328457313, 9163760238485287029, 9282628479964087797, 9241948726259754056, 9132342931223433227, 9338526548107139380, 9299859296041647863, 9364260446792402615, 9338479702210156115, 9437659036324012125, 9626539536857310938, 9642230628656158281, 9705010253265641657, 9773110053489269097, 10139598470358594090, 9851311351910329260, 9719430277925708951, 9759152641542972173, 9627468183532227891, 9776006258828398464, 9832710127560912291, 9610088663068485932, 9718600981671061806, 9870600742973697374, 9792381089234262895, 9775071021975692425, 9787571996822932588, 9773389869815508896, 9897199061961974260]
def s4 : List Nat := [9789013246617355370, 10017274902612975080, 10070785445795940320, 9934080893485145528, 9942827304730886053, 10157488034069724840, 10135061813158674660, 10126154760289490270, 10246428416417121830, 10013829487364216690, 10143690037564164240, 10454384646292492770, 10397350124039180600, 10412127047017905760, 10230030542419716190, 10339173894740502300, 10456988201174952610, 10602486315382459590, 10503031420209682220, 10503529179112482950, 10697331466652008340, 10600442141978435940, 10716953913290289130, 10816893727919666900, 10904755368086926800, 10875327773871646500, 10968107043390214500, 10778169851944294750, 10867129349749333160, 11000720671445946180, 10989026129945990680, 11103978814301907760, 11431584398984892530, 11043110399486986280, 10992906026336416200, 11145392169548301430, 11152462235958689270, 11205441748191333530, 11283019508135673860, 11335845333076464850, 11498608776553235800, 11231547511385574980, 11346840458028204680, 11587828316650814030, 11659175069912612590, 11498908508279463320, 11788909218181035740, 11433421740411146230, 11522292770723348030, 11679314736386636130, 11723871468574503870, 11871739112716710170, 11788103740301124960, 11868089170387328260, 11858761294065755660, 12040391968985988890, 12093943743167580220, 12142292562754018070, 12216995381593301680, 12151783696958379840, 12238927305683643900, 12284762968806671190, 12318142068141630270, 12341375314149901560, 12526043131874020130, 12313101689084461840, 12706944604626882020, 12737222727438755000, 12675363899493445530, 12845832071049197860, 12879434675464382480, 12860744858125607050, 12742680522523425090, 12788481374106155160, 13133222009736953870, 12971036593222473920, 13051814752390785880, 12975559104751831410, 13207376623735119930, 13304998965560192140, 13554625254651697830, 13266291576183468230, 13427173625921095640, 13198215095937908720, 13559699867492466060, 13598407604576022590, 13523475670274530460, 13539024028314100220, 13725245458637764190, 13914844560777555630, 13926213764375953860, 14065407232277127390, 13966761560824888790, 13963188633070834810, 13987382738664677770, 14010544910861138470, 14104157575013992330, 14068756796496142070, 14430834507429472390, 14410768821560441080, 14267430547168957420, 14460785333833124850, 14215007804925711470, 14543998475828031570, 14532524909569642050, 14916389628390332330, 14790776854065763400, 14959856039671641890, 14821754432841022530, 15483436438349414310, 15537195849358114340, 15847021718536367440]
/-- value column after the leading `inf` rows -/
def vals : List Nat := s0 ++ (s1 ++ (s2 ++ (s3 ++ (s4))))

end Ripple.NoiseData.O2

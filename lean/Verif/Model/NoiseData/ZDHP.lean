/-
  Generated by tools/gen_noise.py from src/ripplegw/noise_resources/aLIGOZeroDetHighPower.dat (all 200 rows, exact decimals).
  Frequencies in units of 1e-17 Hz, second column in units of 1e-65; `none` is `inf`.
-/
namespace Ripple.NoiseData.ZDHP

/-- decimal exponent of the frequency column -/
def fexp : Nat := 17
/-- decimal exponent of the value column -/
def sexp : Nat := 65
def f0 : List Nat := [1999999999999999289, 2047803355839261741, 2096749292093271677, 2146865118351100676, 2198178796946818636, 2250718958561203920, 2304514918196342776, 2359596691532055601, 2415995011673283699, 2473741346297734012, 2532867915213417476, 2593407708335816153, 2655394504094748953, 2718862888281180545, 2783848273344515789, 2850386918151116333, 2918515948215095790, 2988273376412640303, 3059698124191464075, 3132830043287189881, 3207709937958782831, 3284379587755474006, 3362881770827817718, 3443260287795941821, 3525559986188298467, 3609826785464509413, 3696107702636341230, 3784450878501023396, 3874905604501618228, 3967522350229393879, 4062352791583514744, 4159449839603856702, 4258867669992929450, 4360661753343433134, 4464888886088301945, 4571607222190525732, 4680876305590383168, 4792757103428237997, 4907312040061404446, 5024605031894083140, 5144701523039773861, 5267668521836103679, 5393574638232409768, 5522490122070935570, 5654486902283019845, 5789638627022161188, 5928020704756301029, 6069710346342291274, 6214786608106017951, 6363330435952208575, 6515424710528525054, 6671154293469183472, 6830606074743845113, 6993869021138253572, 7161034225893585869, 7332194959532350254, 7507446721899034969, 7686887295444657298, 7870616799784880868, 8058737747562180687, 8251355101643186174, 8448576333683168116, 8650511484090282011, 8857273223423078434, 9068976915255510107, 9285740680544518000, 9507685463536115833, 9734935099246710877, 9967616382557417865, 10205859138959750960, 10449796296992285250, 10699563962408755910, 10955301494118737080, 11217151581943623740, 11485260326230915950, 11759777319371610820, 12040855729265821590, 12328652384783472940, 12623327863267667230, 12925046580129389890, 13233976880583881550, 13550291133579449370, 13874165827971492600, 14205781670995227730, 14545323689091949860, 14892981331145415420, 15248948574185524760, 15613424031618734490, 15986611064045106900, 16368717892724333750, 16759957715753543540, 17160548827022114440, 17570714738009712620, 17990684302495327530, 18420691844247326690, 18860977287765314260, 19311786292146967980, 19773370388154603460, 20245987118557860640, 20729900181830620910, 21225379579282852660, 21732701765708776520, 22252149803636160640, 22784013521262068020, 23328589674163782770, 23886182110874892710, 24457101942418668730, 25041667715893959210, 25640205592209696310, 26253049528067805340, 26880541462295821020, 27523031506632895570, 28180878141076311750, 28854448413896676580, 29544118146434266240, 30250272142789856390, 30973304404528022360, 31713618350511762860, 32471627041991786200, 33247753413075844260, 34042430506706517690, 34856101716279260930, 35689221033035659050, 36542253299369821210, 37415674468188922220, 38309971868473360250, 39225644477183720940, 40163203197667348830, 41123171144718719460, 42106083936453632080, 43112489993159726960, 44142950843289531800, 45198041436767977070, 46278350465787724490, 47384480693272820420, 48517049289192436850, 49676688174913562080, 50864044375784322940, 52079780382144122090, 53324574518963288480, 54599121324316888600, 55904131936905605470, 57240334492838064760, 58608474531897866200, 60009315413520164380, 61443638742711721080, 62912244806150226850, 64415953018707784850, 65955602380647064820, 67532051945744512980, 69146181300603541330, 70798891055422961930, 72491103346496777250, 74223762350723404780, 75997834812413680080, 77814310582689370220, 79674203171774922790, 81578550314489984880, 83528414549257308860, 85524883810951132550, 87569072037914327210, 89662119793485589980, 91805194902380821990, 93999493102286544400, 96246238711026035160, 98546685309672875520, 100902116441991984200, 103313846330597539200, 105783220610229818700, 108311617078556764700, 110900446464922902100, 113551153217470869100, 116265216309077482000, 119044150062553376300, 121889504995564698200, 124802868685752037000, 127785866656524831300, 130840163284030109000, 133967462725796872300, 137169509871579134600, 140448091316923228100, 143805036360007352400, 147242218022305178200, 150761554093646350300, 154365008202255830800, 158054590910367301100, 161832360836026055000, 165700425801702203900, 169660944010360322000, 173716125249636434100, 177868232124799647000, 182119581321180908200, 186472544896777776600, 190929551605754613800, 195493088253574865100, 200165701084525949200, 204949997202405347700, 209848646025166453900, 214864380774330811600, 219999999999999727200]
/-- frequency column -/
def freqs : List Nat := f0
/-- number of leading rows whose value is `inf` -/
def ninf : Nat := 0
def s0 : List Nat := [42956142576959987510, 38832621087392855800, 35137182281640628690, 31824988501541230680, 28801268677437830320, 26145439666111466380, 23721145600630957780, 21551705025850855380, 19609364218484624790, 17840827551634357940, 16259569801858660390, 14822665686760726620, 13539048160918929580, 12391374924613254110, 11349301285384705900, 10404705029650653150, 9561357470835292138, 8797322030924402362, 8114996412781482270, 7496948954201411366, 6937678170846969859, 6432012741433469664, 5980551488576292971, 5567299806810546355, 5198482893458040958, 4865054514491053515, 4560392545284464964, 4288399269355341107, 4042555501459501061, 3818041551264217365, 3615329151236163749, 3432215181051643205, 3266709501161945412, 3115622573325289432, 2979045946041466017, 2854370438427165394, 2741583097426302991, 2638559315494744999, 2544461618046305996, 2459193619247115917, 2381189363043735399, 2309798942174515183, 2244421134205164751, 2184502077255961518, 2129533428089485501, 2079050154261648106, 2032309041853823840, 1989593506941756919, 1949939442594162849, 1913103891336993162, 1879070934999045561, 1847373767155782349, 1817995380634058553, 1790549028991190350, 1764726897969965730, 1740686844714436162, 1718131897011704024, 1696937326798950626, 1676884627580561435, 1657990769821645743, 1640069826203928320, 1623136730172874432, 1607033731662399678, 1591704022183909060, 1577161635106469385, 1563220781157180861, 1549908571319502947, 1537184504409409697, 1524960884767620215, 1513261232635641342, 1502009638385919966, 1491185938410482850, 1480771489777426882, 1470749127653420709, 1461103104269037922, 1451819015241578186, 1442852749560879994, 1434197725063887395, 1425847812276182391, 1417797339951893022, 1410065446377679317, 1402574281802054387, 1395370995926732523, 1388451415643993878, 1381773697581351845, 1375377193549870756, 1369225051639712864, 1363320679708802508, 1357681863232999836, 1352294993963371125, 1347163011975847783, 1342276981126124541, 1337653074780006550, 1333283780559908832, 1329173973193900118, 1325328296656800898, 1321743631217759769, 1318426512454222172, 1315389262614555628, 1312625029055572594, 1310141739664987726, 1307951006808051662, 1306051563991806524, 1304455208505190366, 1303168879794697938, 1302196476702934481, 1301549082064601399, 1301234913735752045, 1301262704777242715, 1301642904621162975, 1302384973950636150, 1303502272508718913, 1305002189063655940, 1306903111752953732, 1309215261771127716, 1311950779602568480, 1315126394629239216, 1318755686583544664, 1322857866815496677, 1327447985276665075, 1332547758675028700, 1338173760522960194, 1344342610936038526, 1351079148304737763, 1358401641559892918, 1366337602653216175, 1374916646860576798, 1384160420524311990, 1394090772516928144, 1404740860609382529, 1416134495567597898, 1428307842333892054, 1441311927160016671, 1455149877059953634, 1469875466674718859, 1485532848684031857, 1502139514937478542, 1519771801622899860, 1538434697833357796, 1558210331822043703, 1579137753958695972, 1601256712287663552, 1624625438626640335, 1649305114763409575, 1675359963827378849, 1702837901023425593, 1731827817429941545, 1762362413494983074, 1794557895280629090, 1828473334073254540, 1864169024637050364, 1901729552614225047, 1941290676360087956, 1982875596965642422, 2026628760062163837, 2072652773579457067, 2121028295991562481, 2171864787506997775, 2225304081670298579, 2281438704174093456, 2340450900014992684, 2402414100271541986, 2467493244975090920, 2535830279892053312, 2607605158686158696, 2682940626832571488, 2762064208247527015, 2845077041658915360, 2932258544534424184, 3023722301919536846, 3119731875991590385, 3220488439436866813, 3326200705681810297, 3437125547396485822, 3553490400170400144, 3675573448453915646, 3803665604434692079, 3938070974817924013, 4079016104001712699, 4226872985527600248, 4381984673914090683, 4544660221414686047, 4715269711015587348, 4894199176110498279, 5081903859864711013, 5278699232040103498, 5485129299907780764, 5701596946886741810, 5928576619231173705, 6166681051683314898, 6416311211934339037, 6678064412816786238, 6952565412690708204, 7240402094905998063, 7542252504037334565, 7858688015342971260, 8190508879183589559, 8538482416495913391, 8903335931910260582, 9285824434920114223]
/-- value column after the leading `inf` rows -/
def vals : List Nat := s0

end Ripple.NoiseData.ZDHP

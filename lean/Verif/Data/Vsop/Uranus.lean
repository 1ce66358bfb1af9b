import Mathlib.Data.Nat.Notation

/-! Generated by tools/gen_vsop.py from vsop87d_dict.py; do not edit.
Each row is amplitude, phase and frequency in units of 1e-11. -/

namespace Verif.Data

/-- `vsop87d_dict.py` 25936-26035. -/
def uranusL0_0 : List (ℕ × ℕ × ℕ) := [
  (548129294299, 0, 0), (9260408252, 89106421530, 7478159856730),
  (1504247826, 362719262195, 148447270830), (365981718, 189962189068, 7329712585900),
  (272328132, 335823710524, 14956319713460), (70328499, 539254431993, 6373589830340),
  (68892609, 609292489045, 7626607127560), (61998592, 226952040469, 296894541660),
  (61950714, 285098907565, 1104570026390), (26468869, 314152087888, 7181265315070),
  (25710505, 611379842935, 45490936652730), (21078897, 436059465144, 14807872442630),
  (17818665, 174436982544, 3664856292950), (14613471, 473732047977, 393215326310),
  (11162535, 582681993692, 22434479570190), (10997934, 48865493179, 13851749687070),
  (9527487, 295516893093, 3516409022120), (7545543, 523626440666, 10994568878850),
  (4220170, 323328535514, 7084944530420), (4051850, 227754158724, 15104766984290),
  (3354607, 106549008887, 445341812490), (2926671, 462903695486, 956122755560),
  (3490352, 548305567292, 14659425171800), (3144093, 475199307603, 7775054398390),
  (2922410, 535236743380, 8582729883120), (2272790, 436600802756, 7032818044240),
  (2051209, 151773563459, 11187458460), (2148599, 60745800902, 3813303563780),
  (1991726, 492437290826, 27703499374140), (1376208, 204281409054, 6522037101170),
  (1666910, 362744580852, 38012776796000), (1284183, 311346336879, 20225339517410),
  (1150416, 93344454002, 318139373770), (1533223, 258593414266, 5269019803950),
  (1281641, 54269869505, 22286032299360), (1372100, 419641615561, 11143016149680),
  (1220998, 19901396193, 10846121608020), (946195, 119249463066, 12747179660680),
  (1150993, 417898207045, 3367961751290), (1244342, 91612680579, 244768055480),
  (1072008, 23564502877, 6225142559510), (1090461, 177501638912, 1253017297220),
  (707875, 518285226584, 21329909543800), (653401, 96586909116, 7871375183040),
  (627562, 18210181975, 98460033162190), (524495, 201276706996, 29912639426920),
  (559370, 335776737704, 52126486180), (606827, 543209728952, 52969096509460),
  (404891, 598689011389, 807675484730), (467211, 41484068933, 14510977900970),
  (471288, 140664336447, 18472728735580), (483219, 210553990154, 96320784650),
  (395614, 587039580949, 35181659230870), (433532, 552142978255, 18324281464750),
  (309885, 583301304674, 14563104387150), (378609, 234975805006, 5662235130260),
  (398996, 33810765436, 41555249061210), (300379, 564353974146, 2209140052780),
  (249229, 474617120584, 22582926841020), (239334, 235045874708, 13703302416240),
  (294172, 583916826225, 3961750834610), (216480, 477847481363, 34077089204480),
  (251792, 163696775578, 22137585028530), (219621, 192212987979, 6766805156650),
  (201963, 129693040865, 4818410980), (224097, 51574863468, 8434282612290),
  (216549, 614211862702, 593789083320), (222588, 284309380331, 26063243090),
  (207828, 558020570040, 6884370773410), (187474, 131924326253, 16005869440),
  (158028, 73811997211, 5417467074780), (199146, 95634155010, 15253214255120),
  (168648, 587874000882, 1815924726470), (170300, 367717520688, 541662597140),
  (193652, 188800122606, 45639383923560), (192998, 91616058506, 45342489381900),
  (181934, 353624029238, 7923501669220), (173145, 153860728054, 16060889739850),
  (164588, 142379714838, 10697674337190), (171968, 567952685533, 21989137757700),
  (162792, 305029377666, 11291463420510), (146653, 126300172265, 5980374504030),
  (139453, 538597723400, 3219514480460), (138585, 425994786673, 90981873305460),
  (143058, 129995487555, 3542472265210), (123840, 137359990336, 711354700080),
  (104414, 502820888813, 75075952540), (103277, 68095301267, 1497785352700),
  (94741, 90674090409, 7466972398270), (82978, 292828718445, 26598929347750),
  (110163, 202685778976, 55406998748280), (94226, 394266328260, 7489347315190),
  (79858, 101446829180, 659228213900), (109376, 570581833286, 7796299230500),
  (85876, 170649435603, 8285835341460), (103562, 145770270246, 2437902238820),
  (74667, 463177552576, 6936497259590), (79919, 300974084247, 29764192156090),
  (84502, 36887189574, 18621176006410), (88810, 52481330563, 18175834193920)]

/-- `vsop87d_dict.py` 26036-26135. -/
def uranusL0_1 : List (ℕ × ℕ × ℕ) := [
  (70303, 118986880009, 6670484372000), (69965, 87476081875, 30534616939270),
  (69927, 376102749315, 13140394986990), (84604, 588725183325, 25653994050650),
  (74341, 624271323846, 44779581952650), (62310, 16901376623, 47928838891550),
  (72726, 284892775693, 46202291352810), (69060, 443934854374, 3935687591520),
  (76568, 458721110340, 621977512350), (73387, 427603448634, 8731177153950),
  (55307, 149636544147, 7160020482960), (57291, 163015165542, 14362530630140),
  (61661, 318604743524, 7722927912210), (57634, 367180685401, 5120572533120),
  (50289, 112279384633, 2060692781950), (53744, 551890986247, 12895626931510),
  (57894, 266877593418, 38161224066830), (58112, 158629352171, 6076695288680),
  (45382, 48053933052, 1401464568050), (37581, 606822931932, 21181462272970),
  (38640, 343597050177, 15349535039770), (46087, 436201639577, 7574480641380),
  (40088, 457333927519, 4620979048510), (34229, 293967782207, 14000196957900),
  (38669, 558941074168, 9916062095550), (34827, 102792863024, 20373786788240),
  (40024, 69889667397, 21840690486870), (32538, 421625657443, 20076892246580),
  (31865, 550961503408, 7233391801250), (41695, 382438031124, 8100137369080),
  (34795, 39363490236, 137259812370), (39775, 605600836903, 29318850343600),
  (27577, 218261286374, 12598732389850), (36279, 166586085405, 25802441321480),
  (35442, 196652806541, 83503713448730), (35361, 372258690030, 69258748435350),
  (27323, 210164372072, 20936694217490), (26530, 448265986115, 37390799283650),
  (34472, 107907945481, 19120769491020), (29915, 387358632506, 25950888592310),
  (26233, 363172504384, 49033408917940), (25848, 54461409359, 4164449777560),
  (26989, 627711247734, 2857180808220), (26391, 581110061049, 7530286342910),
  (34227, 605617272657, 27555052103310), (24279, 318776564878, 8137388070630),
  (29937, 188789751816, 26992144674060), (26235, 620105251336, 13458534360760),
  (22754, 92919725789, 28808069400530), (25180, 542547381962, 11642609634290),
  (22715, 53098783687, 151429129671650), (26485, 477176167929, 28414854074220),
  (27008, 475281624832, 4110198105440), (21972, 458613057386, 40450679034820),
  (22012, 184389287183, 61780588578620), (24694, 470875195490, 37864329525170),
  (28949, 17127584792, 52820649238630), (20492, 10285646641, 19513984817330),
  (20696, 562143477633, 5565914345610), (25843, 74627159338, 27851946644970),
  (22990, 358378694661, 159634729290), (21843, 5733533568, 17394221952280),
  (19050, 230351091243, 510780943070), (20675, 264113858585, 10549227066360),
  (21856, 587352402691, 4557665103870), (21120, 198081790016, 11439910691340),
  (19279, 284304025179, 15912442469020), (19061, 50598371738, 6735923502580),
  (20434, 377601951414, 13554855145410), (17326, 447793157645, 12035824960600),
  (20547, 88695598555, 25505546779820), (19320, 148569290504, 89377187730),
  (21331, 274470023060, 2831117565130), (17582, 409139636700, 29615744885260),
  (15918, 394525074972, 1752610781830), (15562, 92748407689, 30061086697750),
  (16439, 30868798605, 3071067209630), (15237, 493048601827, 742236354150),
  (19284, 621950083268, 32983706636550), (13860, 56255266406, 14414657116320),
  (16206, 230292598693, 34470304530790), (16041, 19723295436, 10309277421860),
  (14414, 257606243208, 23056457082540), (16789, 493540052916, 56511568774670),
  (17052, 181844925116, 29467297614430), (16766, 27542186330, 7381839072080),
  (15428, 191577056305, 9687299909510), (15718, 387095025861, 9889998852460),
  (11923, 617545505441, 4472531777680), (12407, 622419970167, 8019822453870),
  (13040, 199652993223, 2708733537390), (13229, 343782440072, 22731374111850),
  (11669, 431526860843, 42659819087600), (14378, 578353646474, 105938193018920),
  (15879, 98454960055, 620829425142410), (11158, 174417430690, 22041264243880),
  (11989, 584388657950, 1333332212430), (11386, 255925734515, 1912245511120),
  (13281, 539472153462, 39117346822390), (12295, 457340278496, 2357587323610)]

/-- `vsop87d_dict.py` 26136-26235. -/
def uranusL0_2 : List (ℕ × ℕ × ℕ) := [
  (12827, 177410269070, 18027386923090), (11651, 429138607818, 14244965013380),
  (12248, 244241346243, 10038446123290), (12421, 232591770919, 8071948940050),
  (9774, 39898140151, 786430652620), (13172, 274099358938, 17787437278590),
  (12262, 542795591646, 83110498122420), (10272, 590194483926, 7452096613640),
  (9317, 375869700774, 7482978267710), (10701, 400709797731, 23539049596580),
  (9243, 538492199672, 2044686912510), (9461, 260126707172, 9230770638560),
  (12066, 552163100220, 7426033370550), (10836, 188393779293, 24161027108930),
  (9317, 116483658310, 7473341445750), (10718, 550310449842, 18769623277240),
  (12057, 602120050390, 15401661525950), (9124, 115458738606, 63313944640),
  (11526, 626425302826, 15578297225810), (12200, 579400179483, 136472809958190),
  (10979, 576614513865, 62885158605010), (8532, 518016456150, 164453140270),
  (8660, 378133822411, 7494165726170), (11227, 130788626675, 60447256366190),
  (10531, 105867421534, 29170403072770), (8446, 352020067595, 75632338265690),
  (10291, 530493908317, 7504223099820), (8015, 624347048958, 54302428721890),
  (7796, 523497582886, 5810682401090), (9310, 165210713729, 2411838995730),
  (8642, 114285691458, 7462153987290), (7797, 400208030502, 3149256938900),
  (8915, 363129389881, 40843894361130), (7191, 424536221306, 11020632121940),
  (9764, 10205649809, 36648562929500), (8710, 225910759480, 45194042111070),
  (9430, 200492467431, 33132153907380), (9008, 163146330622, 44386366626340),
  (7247, 435313018726, 8811492069160), (7659, 61918159043, 5040257617910),
  (6836, 512190844483, 80314915210), (9367, 142664537007, 41406801790380),
  (8136, 45279998999, 2560286266560), (9199, 241000352664, 1013850394764370),
  (6896, 585017813531, 33928641933650), (6487, 603397141885, 122384027740),
  (7186, 400480285222, 15763995198190), (8130, 21907525983, 42266603761290),
  (8022, 209953974305, 9294084583200), (6371, 447820781123, 7988940799800),
  (7957, 586499639179, 76025553592000), (8383, 233782809093, 41703696332040),
  (7931, 341952210669, 770424783180), (6613, 139197711439, 1667477455640),
  (7142, 557864813931, 473530241520), (7441, 48121969777, 6818931642830),
  (7187, 50441238918, 45787831194390), (6613, 284628770892, 14214083359310),
  (6399, 388681409308, 7403083904190), (6140, 165776909220, 35033211960040),
  (7053, 13890020306, 30683064210100), (6010, 546434004640, 4875804477640),
  (6810, 615448079403, 6788049988760), (5982, 236098472874, 200573757010),
  (5709, 149928444044, 20618554843720), (6843, 108172913275, 46595506679120),
  (6408, 507331258075, 466586644600), (7805, 398866710061, 362333672240),
  (5527, 557881556653, 292076130680), (5521, 338225987040, 14945132255000),
  (6107, 195504762856, 21692243216040), (5692, 283076925167, 26099335863140),
  (6586, 271085048651, 32972519178090), (5826, 398800970226, 34788443904560),
  (5745, 49160564101, 37250701550), (5473, 569158856279, 169692102940),
  (4982, 240870746521, 34225536475310), (6040, 478944090986, 55800214074590),
  (5317, 278403764459, 1349338081870), (5090, 547747622578, 37242352012820),
  (4894, 177082918618, 33365734504400), (5389, 294076732149, 940116886120),
  (4757, 537129102802, 6128821774860), (5000, 343988321744, 51864526483070),
  (5664, 330309284254, 65439130580), (5530, 45092393824, 16209337010680),
  (5746, 345964923866, 5513787859430), (5666, 123578675332, 32835259365720),
  (5071, 542033080481, 97748678462110), (5719, 66718965817, 9204707395470),
  (4994, 129267872727, 98311585891360), (5570, 236255927193, 690109867970),
  (5189, 240682220291, 5831927233200), (5502, 13301359232, 14967507171920),
  (4706, 185473330365, 11950691634410), (4305, 418171934306, 9082323367730),
  (5953, 173036741041, 15274459087230), (5607, 553187692339, 108769310584050),
  (5591, 575072223569, 35893013930950), (4441, 97726075887, 419278569400)]

/-- `vsop87d_dict.py` 26236-26335. -/
def uranusL0_3 : List (ℕ × ℕ × ℕ) := [
  (4608, 331800103668, 8975945209430), (4677, 501422713233, 4312897048390),
  (4034, 108242564328, 7553235809270), (5626, 110270225604, 6691729204110),
  (4058, 194012136050, 1726547538740), (4770, 224207019076, 98608480433020),
  (5207, 136600428910, 76736908292080), (4940, 13733547633, 85133326190),
  (4339, 533814728291, 15201087768940), (3917, 385320550575, 228762186040),
  (3903, 587573410158, 1646232623530), (4655, 93665017107, 26747376618580),
  (4638, 542566923517, 1604163511000), (5177, 340845690805, 128994650101460),
  (3825, 59888105730, 21033015002140), (5048, 216732539242, 36797010200330),
  (3819, 170901925915, 562907429250), (5004, 26759264038, 40313419222450),
  (4202, 512029089394, 1901058052660), (4472, 288978371811, 5928248017850),
  (4700, 417709035394, 13044074202340), (4487, 85521839581, 96962247809490),
  (3802, 459721371468, 2586349509650), (4024, 498868930941, 3005628079050),
  (4722, 616359211847, 17368158709190), (4732, 376697693308, 37301422095920),
  (3542, 76768843819, 11413847448250), (3370, 200021522907, 28659622129700),
  (3626, 320240733896, 99171387862270), (4028, 46802022168, 38724131496080),
  (3442, 520959733350, 89484087952760), (3273, 546374958434, 19269216761850),
  (3291, 397847646998, 26450482076920), (3291, 162538722379, 68154178408960),
  (3198, 396580804800, 14638180339690), (4016, 140657464840, 38309671337660),
  (3844, 360271287642, 59070083100), (3123, 450215520755, 143950969814920),
  (3434, 518704419009, 9741551581630), (3123, 414198630214, 7647851959670),
  (3259, 165410614252, 21478356814630), (3557, 415769848885, 6856182344380),
  (2934, 295575531139, 12099138905240), (2914, 369930995976, 87439401040250),
  (3301, 214570582133, 25357099508990), (3362, 482277888708, 1964371997300),
  (3218, 256428709831, 6055450456570), (3059, 357539890234, 11791056905120),
  (3073, 354739757836, 9538852638680), (2789, 65190913388, 4253826965290),
  (3235, 531608088666, 54695644048200), (3657, 589905956226, 1615350969460),
  (3549, 276314903735, 8248584639910), (3627, 468663059919, 59342686339800),
  (3306, 157486085317, 31245971639350), (3602, 251921910142, 2289454967990),
  (3431, 495532928836, 4972125262290), (2675, 241314606353, 2920494752860),
  (3101, 142849885249, 1763798240290), (3399, 302815712113, 8879624424780),
  (3379, 265894323745, 77130123618390), (2547, 610642153361, 45587257437380),
  (2967, 31461418738, 15052640498110), (2681, 116839594153, 47780391620720),
  (3343, 309880618811, 55258551477450), (2678, 142841144096, 111196569280),
  (2540, 194053883528, 648040755440), (2491, 297226347939, 45394615868080),
  (2744, 193313970916, 7318525127440), (2935, 459394106280, 16708930495290),
  (3007, 138745560615, 36500115658670), (3053, 191792962252, 56118353448360),
  (2496, 545540866674, 6618357885820), (2622, 146324659292, 3313710079170),
  (3203, 401683757076, 55555446019110), (2317, 113727677715, 4324084506850),
  (2341, 587635018071, 22827694896500), (2841, 360234459541, 4258645376270),
  (2858, 153714262537, 35330106501700), (2484, 385791009894, 10400779795530),
  (2903, 521967656512, 7340900044360), (2760, 121343315367, 3224332891440),
  (2269, 331411391807, 414460158420), (2241, 265636547591, 7011573212130),
  (2246, 408175081363, 12353964334370), (2583, 238305971478, 10064509366380),
  (2761, 571758409791, 4328902917830), (2827, 616734582851, 10186893394120),
  (2838, 54888495490, 2049505323490), (2145, 404195315408, 4706112374700),
  (2810, 190169260186, 27310284047830), (2922, 279808700183, 41826080359780),
  (2070, 550402718290, 4769426319340), (2071, 201973573060, 31639186965660),
  (2520, 312740527423, 90588657979150), (2170, 446196560050, 270831298570),
  (2399, 378849518316, 7558474771940), (2746, 482558024832, 685291456990),
  (2717, 233108458294, 40461866493280), (2416, 411932546205, 33280601178210)]

/-- `vsop87d_dict.py` 26336-26435. -/
def uranusL0_4 : List (ℕ × ℕ × ℕ) := [
  (1974, 579881978458, 1115757484850), (1967, 543918682709, 19928444975750),
  (2282, 279530897096, 2263391724900), (1910, 27727117649, 6915252427480),
  (2471, 351033894778, 859801970910), (1904, 345282024423, 47217484191470),
  (2606, 43601023323, 43978275515400), (2663, 543112910549, 326583082813250),
  (2058, 169362390174, 6587476231750), (2258, 532927779367, 90833426034630),
  (1873, 555399805910, 17516605980020), (2222, 96973865202, 3909624348430),
  (2121, 200302088316, 10601353552540), (2010, 149945418027, 2922619938800),
  (2222, 436573603431, 46824268865160), (2055, 5798973044, 20522234059070),
  (2086, 44287700052, 1029494073850), (1770, 432048805830, 45757438700),
  (2112, 578682409103, 48640193591630), (1909, 82888506421, 25494359321360),
  (1973, 605826379648, 7840493528970), (1908, 555892482384, 1549911838880),
  (1888, 620874408008, 19832124191100), (2092, 255561831566, 4950880430180),
  (1775, 617741514589, 25887574647670), (2146, 140508118810, 52672201967800),
  (1800, 4238718337, 33429048449040), (1738, 199152421966, 7706922042770),
  (1641, 336410541913, 11802244363580), (2084, 521275540105, 13406407874580),
  (1861, 297480744198, 17878939652260), (1750, 201731567093, 14266209845490),
  (1600, 160963172329, 4016002506730), (1668, 153361997245, 83008140250),
  (1769, 472689497119, 3271640966640), (1782, 260469159465, 16682867252200),
  (1765, 557583636983, 52257741809380), (1877, 109044005603, 27406604832480),
  (1544, 191798419140, 30386169668440), (1532, 344973397383, 12450285119020),
  (1658, 523946791059, 23390602325750), (1743, 232369273283, 29021955801940),
  (1528, 62020771152, 103335837639830), (1522, 611272567668, 16560483224460),
  (1496, 202190170195, 15008446199640), (1490, 330997217921, 82005928096030),
  (1398, 341567259878, 499593484610), (1886, 625585539882, 16289651925890),
  (1388, 62745508416, 44868959140380), (1918, 91483173263, 181963746610920),
  (1682, 211545135265, 18972322220190), (1711, 255731536599, 110813997496560),
  (1598, 89607036108, 11588357962170), (1477, 22838214106, 37093904741990),
  (1727, 154005322759, 40164971951620), (1432, 373381952953, 890683624980),
  (1338, 19338311739, 8189514556810), (1618, 602595306259, 3123193695810),
  (1452, 11827434627, 7277586099720), (1626, 426332651029, 36945457471160),
  (1284, 318389639039, 36286229257260), (1755, 557436830525, 34496367773880),
  (1451, 442615381750, 18918070548070), (1294, 277775613125, 6362402371880),
  (1712, 216785817753, 53680451209540), (1266, 278408709208, 5577101804070),
  (1700, 249908604932, 44126722786230), (1645, 241257585783, 1008249241740),
  (1666, 500664377609, 7951690098250), (1674, 394784675, 49155792945680),
  (1334, 562972572008, 12991947716160), (1328, 25606135840, 11494162363460),
  (1176, 163208422172, 8418276742850), (1177, 410449248614, 10335340664950),
  (1384, 573004529870, 8933876096900), (1287, 99537181009, 1466903698630),
  (1171, 598078310685, 5714361616440), (1126, 339586759408, 37539246554480),
  (1406, 518477940039, 11387784205160), (1397, 149751443233, 1422709400160),
  (1206, 360301196272, 48077286162380), (1113, 480418427391, 944935297100),
  (1434, 157158177893, 41974527630610), (1473, 103881736383, 121516490244730),
  (1311, 299704179684, 45884151979040), (1453, 610676427884, 6469910614990),
  (1070, 316542344402, 5433472944220), (1389, 278512263875, 2602355379090),
  (1203, 20627563214, 56944897160), (1343, 558004577468, 9522846769240),
  (1062, 240616687148, 15497982310600), (1399, 166776602336, 24038643081190),
  (1036, 553891715915, 40302231763990), (1269, 237684527290, 3787240320690),
  (1197, 487553746725, 104440407666220), (1009, 274619462960, 8041067285980),
  (1330, 99603813295, 48322054217860), (1348, 58829539202, 47643131808350),
  (989, 331666847329, 1891000679010), (1054, 285972567059, 61632141307790)]

/-- `vsop87d_dict.py` 26436-26535. -/
def uranusL0_5 : List (ℕ × ℕ × ℕ) := [
  (1276, 472938141859, 69110301164520), (1219, 362909689220, 10627416795630),
  (1269, 153301050628, 28096714700450), (968, 273688433893, 21892816973050),
  (1330, 569234088687, 69407195706180), (1121, 280542439790, 14859998928810),
  (980, 604026702553, 546901559810), (1235, 61136787453, 23767811782620),
  (1161, 532209024820, 36908206769610), (944, 114261861393, 38405992122310),
  (1017, 249896409345, 14711551657980), (1082, 246236323548, 32686812094890),
  (1037, 592126063748, 482592514040), (1232, 583725190224, 6384777288800),
  (914, 36627060914, 1093382567930), (1165, 532140830393, 30831511480930),
  (952, 478982033367, 9390405367850), (993, 339918521663, 1078506783300),
  (1206, 364530500530, 69970103135430), (893, 297140509591, 24846318565920),
  (883, 285605198817, 1519030184810), (875, 343925709280, 308082000120),
  (1103, 480576195766, 613351265285680), (1178, 601576659565, 37715882254340),
  (974, 251206761828, 12184272231430), (865, 568958102479, 14169889060840),
  (974, 315729174941, 21543795945210), (847, 84854843713, 204398226181110),
  (961, 22181374419, 91502373670), (1167, 237544946421, 3394024994380),
  (1013, 343778868786, 3690919536040), (838, 163355479706, 233580597020),
  (1113, 250989694970, 40599126305650), (987, 114030030863, 8220396210880),
  (1060, 170915765427, 43829828244570), (829, 297491446672, 6277269045690),
  (991, 444869793177, 40610313764110), (952, 613897716036, 18498791978670),
  (1033, 419932839584, 14148644228730), (1029, 513205530996, 15726744496640),
  (805, 311000318272, 9379217909390), (865, 444578048207, 29519424100610),
  (921, 488190545687, 1200890811040), (949, 599910796869, 60676018552230),
  (991, 168012021428, 4058071619260), (854, 37823682862, 21723124870110),
  (883, 236224385140, 377209456870), (1016, 390745585959, 19428851491140),
  (807, 593051451738, 30209533968580), (879, 52695940866, 105789745748090),
  (1009, 119621149495, 49007345674850), (801, 496724351781, 66109491496450),
  (843, 97496000705, 7388782669000), (1028, 265189503651, 47791579079180),
  (846, 336343733960, 4084134862350), (772, 493551925711, 42511371816770),
  (781, 59382881638, 9767614824720), (770, 425621058806, 48884961647110),
  (935, 124971148781, 62491943278700), (984, 444298060183, 17165459766240),
  (806, 9410536829, 44068227252570), (769, 409296452529, 14065636088480),
  (802, 78515729603, 1184884941600), (1007, 406909438635, 7615419669100),
  (935, 3808890956, 15615547927360), (712, 535549696452, 61069233878540),
  (911, 470177653335, 8168269724700), (926, 309765550633, 83355266177900),
  (812, 354377377085, 14940313844020), (801, 548034970408, 2197952594320),
  (900, 421739347020, 77841478318470), (689, 256862945159, 10931254934210),
  (685, 319965828980, 3165262808340), (952, 482579978820, 174485586754190),
  (724, 216878848875, 117187587326900), (897, 394746491183, 7567537044460),
  (739, 545802693622, 25265597135320), (821, 426046087515, 124665747183630),
  (663, 583767831921, 8663044798330), (664, 172432848951, 21648048917570),
  (721, 398089320988, 90270518605380), (663, 498388191647, 95857677783100),
  (750, 266119349235, 36351668387840), (828, 362849315181, 1481779483260),
  (663, 323521229496, 20788246946660), (681, 329667467046, 2506034594440),
  (887, 481199147907, 15550108796780), (646, 265129054432, 68547393735270),
  (808, 568764955594, 28000393915800), (619, 132296886424, 19365537546500),
  (621, 257837200005, 70363318461740), (854, 363173686962, 41162033734900),
  (728, 105845783695, 91693228005540), (733, 75817076935, 4409217833040),
  (629, 152747752455, 39739324334740), (599, 530671888409, 18016199464630),
  (615, 568908944293, 2527279426550), (709, 64922689354, 1455716240170),
  (729, 479389069212, 47940026350010), (667, 198320895029, 3761177077600)]

/-- `vsop87d_dict.py` 26536-26635. -/
def uranusL0_6 : List (ℕ × ℕ × ℕ) := [
  (586, 151157853976, 66820846196530), (639, 169085181319, 26247783133970),
  (616, 462035066985, 1226954054130), (687, 224368916079, 22879821382680),
  (599, 208317681783, 14930256470370), (597, 314660293947, 13755428902420),
  (581, 269049614736, 82399143422340), (709, 438514100216, 18409414790940),
  (671, 346925958949, 10538039607900), (619, 291325544152, 23687496867410),
  (558, 296177194880, 3420088237470), (648, 556457931302, 14096517742550),
  (581, 55427680962, 33120966448920), (585, 15548306049, 23242155054920),
  (548, 357525860446, 49744763618020), (574, 560908001848, 11887377689770),
  (702, 174156189506, 14904193227280), (543, 49890445043, 13310087089930),
  (716, 304149734724, 13192521473170), (544, 622369103738, 14961138124440),
  (539, 74276113752, 91130320576290), (614, 583710659138, 18105576652360),
  (601, 30768922616, 40758761034940), (635, 403476459045, 13606981631590),
  (526, 542874995984, 45097721326420), (547, 307676037032, 20470107572890),
  (622, 308666523105, 26843697403230), (537, 425467814241, 21744369702220),
  (566, 484686444604, 84215068148810), (636, 257425168783, 62173803904930),
  (623, 584341335807, 5280207262410), (544, 362983006500, 14951501302480),
  (578, 34796271917, 13948070471720), (537, 599181083831, 24697871295090),
  (674, 257972741298, 60298809095360), (539, 619662961610, 69651963761660),
  (516, 219916575703, 45809076026500), (632, 526658553640, 6707735073550),
  (581, 5320320337, 9593104310800), (504, 624600928623, 14972325582900),
  (638, 623121553223, 1006372234907640), (528, 20662780149, 31017209453310),
  (537, 296207822442, 7313706716460), (508, 529969144068, 33577495719870),
  (487, 283772541949, 14393412284210), (537, 336808372143, 25208652238160),
  (632, 588494938125, 92086443331850), (523, 613183488285, 158907289528380),
  (579, 4597861846, 56363121503840), (613, 34938781762, 34347920503050),
  (495, 289212499810, 6144827644300), (623, 71740350315, 51307988101300),
  (498, 253375871592, 4175637236020), (564, 201612524784, 44928029223480),
  (480, 10535023009, 6967378913660), (494, 325187012728, 42808266358430),
  (536, 581149025999, 28266406803390), (468, 89483830828, 54153981451060),
  (533, 244239677121, 39346109008430), (589, 624067076234, 2979564835960),
  (465, 25006743710, 5725549074900), (622, 389339038121, 41677633088950),
  (519, 272375973888, 46913646052890), (498, 176422801185, 38038840039090),
  (596, 83642843095, 9835747180340), (459, 39052216206, 19779997704920),
  (574, 286366933069, 17076082578510), (518, 338058345605, 53591074021810),
  (564, 120395155832, 83258945393250), (556, 439974034374, 19662432088160),
  (537, 393637064940, 46053844081980), (482, 241562148830, 82792358748650),
  (578, 239644032176, 167007426897460), (475, 419223519775, 27140591944890),
  (452, 399146251480, 13533610313300), (514, 611377193423, 189441906467650),
  (531, 345607724228, 45045594840240), (492, 587591888758, 17017012495410),
  (588, 266953705406, 31097524368520), (564, 104491117370, 44631134681820),
  (440, 585084571537, 22423292111730), (441, 219799439287, 11939504175950),
  (549, 605651523611, 7637794586020), (573, 229898526750, 12247586176070),
  (473, 461187869812, 29126208774300), (553, 490464199013, 46350738623640),
  (599, 148666209087, 14982382956550), (499, 372896978991, 85319638175200),
  (440, 505024690419, 7944746501330), (558, 42332722744, 28362727588040),
  (458, 449655973916, 75483890994860), (449, 132861330901, 30868762182480),
  (565, 45628024105, 24187090352020), (510, 370202346104, 45246168597250),
  (404, 12335821240, 109709427470170), (409, 402092464698, 73587651353180),
  (464, 382915608692, 109454602041040), (439, 272266354653, 37619561469690),
  (478, 23380952322, 118292157353290), (412, 121971515436, 41948464387520)]

/-- `vsop87d_dict.py` 26636-26735. -/
def uranusL0_7 : List (ℕ × ℕ × ℕ) := [
  (546, 22296640745, 82962050851590), (510, 269499052512, 41258354519550),
  (409, 251935747849, 40907208305770), (451, 56137272347, 75877106321170),
  (399, 86037315330, 33780194662820), (393, 40202463200, 10749800823370),
  (494, 502745190154, 61929035849450), (404, 8539758465, 1896239641680),
  (504, 418251931021, 44949274055590), (406, 380082989682, 3453095077480),
  (545, 280919248176, 51456435372130), (390, 165941826256, 44720511869550),
  (448, 281540452771, 40016524680790), (405, 486073222353, 140408497549710),
  (476, 161050626902, 5428654533240), (406, 129798079034, 22679247625670),
  (526, 535780726572, 83821852822500), (403, 275405589772, 28511174858870),
  (381, 497702366598, 30927832265580), (448, 137926537411, 74527768239300),
  (419, 90546724862, 45172797278960), (450, 192391706975, 47494684537520),
  (474, 554351717465, 49426624244250), (460, 509575399931, 28956516671360),
  (455, 314755087330, 16857377766120), (372, 487645271422, 11653797092750),
  (479, 108512503555, 15429849954980), (374, 16389070181, 119078588005910),
  (422, 351871257208, 70681457835510), (354, 406405413226, 12429040286910),
  (494, 457924296149, 16772244439930), (357, 578050145791, 126556747862640),
  (402, 267652703260, 46447059408290), (370, 221677703856, 23204904353370),
  (462, 410424305270, 2772047482030), (364, 307518732480, 44263982598600),
  (403, 169214233165, 9028071695610), (348, 116647947937, 35744566660120),
  (443, 132306861852, 29823262239190), (386, 434980428548, 22752618943960),
  (337, 592030047826, 44534813897170), (356, 238824200660, 51159540830470),
  (357, 319265737844, 2119762865050), (406, 372223708907, 311626763099790),
  (341, 305116722794, 1578100267910), (379, 472472516443, 3059879751170),
  (400, 71868453904, 83652160719560), (370, 17259001853, 653166165626500),
  (456, 83408547295, 67480074410430), (376, 591068811321, 161738407093510),
  (392, 190856045571, 2586355834587229), (333, 477074940789, 7678733613740),
  (332, 85699402720, 74920983565610), (321, 388221470645, 3860611638980),
  (321, 259404134515, 130099220127850), (438, 260178805278, 22445667028650),
  (371, 373501205989, 32824071907260), (357, 3656571669, 14881243760920),
  (389, 306990362181, 101291150727320), (392, 314428599675, 12518417474640),
  (326, 223565995627, 8959939339990), (314, 456810921721, 168111996923850),
  (333, 437613329736, 14796684984170), (326, 415448016748, 2114944454070),
  (371, 409066371754, 23916259053450), (372, 112230345314, 32176031151820),
  (305, 612924444546, 1997378837310), (407, 365906570714, 67925416222920),
  (406, 358469900333, 2601312154300690), (310, 392339533494, 22908009811710),
  (321, 135118535306, 17245774681450), (332, 354513021513, 28873508531110),
  (312, 287878773413, 80672595883600), (372, 199953045718, 19280404220310),
  (302, 1867543539, 50137978944330), (299, 396468960950, 2027700789528740),
  (308, 266235795286, 24872381809010), (298, 352867456736, 2145826108140),
  (370, 351061046963, 9145637312370), (297, 79872983355, 74299006053260),
  (414, 481163687199, 58949471013490), (302, 526079338050, 2756041612590),
  (314, 314643487607, 36137781986430), (356, 463707521448, 44275170057060),
  (357, 344793069844, 4461344319220), (370, 425032151516, 30423420369990),
  (366, 543115395433, 62599451521810), (365, 30454498410, 628307584999140),
  (322, 232892248876, 22945260513260), (369, 328573365074, 10452906281710),
  (327, 298588869318, 34884764689210), (315, 366842071994, 23093707784090),
  (356, 90433599977, 2974746424980), (384, 91820739126, 54972844394250),
  (317, 386462587284, 63989728631400), (333, 495319798125, 88150755740330),
  (285, 409883967296, 90418965876210), (338, 565177488491, 19577298761970),
  (365, 57418860616, 28563301345050), (363, 98999016221, 83970300093330)]

/-- `vsop87d_dict.py` 26736-26835. -/
def uranusL0_8 : List (ℕ × ℕ × ℕ) := [
  (330, 226308969695, 4917873590170), (335, 225619157817, 27258157561650),
  (376, 587496858487, 26895823889410), (362, 494491380965, 57222923474750),
  (320, 558342880588, 45936278465220), (299, 286286938521, 88379517926370),
  (286, 249409963193, 15604360468900), (272, 362976505444, 75403576079650),
  (349, 234615857088, 606977675455340), (279, 404872155075, 18079513409270),
  (328, 121350330743, 14819059901090), (315, 74270298817, 32027583880990),
  (324, 554296698387, 150717774971570), (266, 436134021576, 131039337013970),
  (262, 584934968714, 45017406411210), (280, 505848320657, 10252332524700),
  (347, 470068639620, 28214280317210), (342, 547365149093, 16357784281510),
  (364, 329301824378, 37890392768260), (330, 463426494882, 34199473232220),
  (259, 243682741156, 17001006625970), (336, 379029047358, 999998645077300),
  (284, 252583672467, 26610116806210), (281, 393593342516, 19417664032680),
  (297, 18595848541, 49181856188770), (290, 449575150721, 15185081899500),
  (284, 159495665161, 33683873878170), (255, 585817353877, 22934073054800),
  (260, 592834225312, 45506942522170), (274, 53977064975, 38023964254460),
  (259, 315728797958, 45474930783290), (303, 17851964142, 38458118608490),
  (285, 129732672572, 2512978191360), (273, 418776699292, 17730492381430),
  (326, 168159391466, 16172086309130), (321, 236931686576, 227454683263650),
  (241, 357660492473, 15031395666000), (273, 378780099400, 38001589337540),
  (265, 302540120552, 45479749194270), (265, 606087280189, 45502124111190),
  (279, 382392760479, 3154075349880), (273, 264820862667, 83800607990390),
  (238, 517487170793, 26302034806090), (299, 394906046599, 53197858695500),
  (317, 228289083599, 4407092647100), (250, 135950829789, 30412232911530),
  (312, 273327875294, 44237919355510), (314, 386400459047, 73445573129830),
  (251, 15148137746, 22116340196420), (272, 571864670101, 16454105066160),
  (305, 496642198943, 114038330388000), (282, 546073788901, 55013783421970),
  (273, 568721459468, 9241958097020), (256, 88787970870, 41852143602870),
  (229, 502021405557, 14489733068860), (231, 570236752870, 13288842257820),
  (218, 205623736180, 30305854753230), (300, 176109447754, 37152974825090),
  (216, 297122807313, 17665053250850), (224, 312798198868, 18892007304980),
  (212, 130757526083, 7414845912090), (238, 465119406609, 38575684225250),
  (216, 7086910120, 89335640681930), (262, 578959872639, 63596513305090),
  (250, 447327859711, 55110104206620), (222, 164692618955, 7642612997000),
  (254, 261838408005, 52523754696970), (284, 413290731223, 54450875992720),
  (262, 282476092056, 97110695080320), (266, 412467258610, 37567434983510),
  (212, 361675003296, 7541473801370), (253, 314224867483, 27018207917150),
  (250, 432883971376, 34644815044710), (273, 195676918609, 40221916848780),
  (259, 196371242284, 96813800538660), (238, 129663338057, 42118156490460),
  (243, 594961177434, 11736805233000), (241, 470849619029, 40695447090300),
  (216, 331232425021, 19066517818900), (201, 123733749784, 79961241183520),
  (223, 98087204684, 62736711334180), (226, 166139333004, 136621257229020),
  (205, 33839683950, 14334342201110), (240, 71559872262, 52575881183150),
  (223, 257722930616, 98163138620530), (193, 448974066435, 17219711438360),
  (221, 288670838151, 23890195810360), (177, 387122035013, 38968899551560),
  (175, 585737374379, 17071264167530), (233, 63169996424, 98066817835880),
  (225, 481504648561, 8827497938600), (210, 249819501106, 12843500445330),
  (172, 91255921858, 21085141488320), (176, 385133296117, 60595703637020),
  (211, 172999855867, 1021328554621100), (170, 161405340100, 151280682400820),
  (216, 154874566441, 106086640289750), (194, 607381783144, 52012973753900),
  (170, 258526747515, 151577576942480), (172, 145073604378, 99564603188580)]

/-- `vsop87d_dict.py` 26836-26882. -/
def uranusL0_9 : List (ℕ × ℕ × ℕ) := [
  (160, 420015913513, 43371173787680), (219, 163985385568, 63033605875840),
  (219, 196273394194, 31368355667090), (159, 362343846627, 7397844941520),
  (206, 83764718449, 10483787935780), (203, 68701289007, 136324362687360),
  (158, 81666479221, 98756927703850), (172, 297938676702, 32743756992050),
  (147, 215517092627, 7324894174920), (156, 129643469200, 21626804085460),
  (153, 377492020946, 76885355562910), (147, 474903152642, 7334530996880),
  (198, 280749830888, 22530800354840), (179, 35410767087, 42122974901440),
  (204, 347423038287, 56485505531580), (172, 288420642820, 23353351624200),
  (195, 309114364733, 29430046912880), (181, 475684139861, 7115826184490),
  (160, 316134209902, 7004629615210), (155, 207144269719, 9124392480260),
  (154, 337462128317, 13840562228610), (192, 619629054455, 31219908396260),
  (162, 60896273267, 7303649342810), (172, 201712700688, 97355463135800),
  (145, 172582731815, 30237722397610), (170, 297437423989, 319104922956520),
  (153, 11158566352, 13862937145530), (164, 537129563471, 45735704708210),
  (132, 315466226029, 52347118997110), (137, 288313323946, 76588461021250),
  (128, 175773421717, 7770235987410), (173, 503552846066, 41529185818120),
  (137, 477137510538, 7345718455340), (163, 99316178485, 9442531854030),
  (138, 468330115148, 51716079212240), (133, 295376828791, 7515410558280),
  (134, 135779558361, 24994765836750), (168, 473164542970, 10872184851110),
  (119, 148229220689, 23741748539530), (134, 152277177920, 15467100656530),
  (117, 548642273610, 43764389113990), (131, 576525548944, 7543598987310),
  (127, 238309227230, 20884567731310), (115, 438951350436, 34321857259960),
  (114, 448142283161, 22486606056370), (117, 537802827323, 29370976829780),
  (136, 280772094137, 37449869366750)]

/-- `vsop87d_dict.py` 25935-26883. -/
def uranusL0 : List (ℕ × ℕ × ℕ) := List.flatten [
  uranusL0_0, uranusL0_1, uranusL0_2, uranusL0_3, uranusL0_4, uranusL0_5, uranusL0_6, uranusL0_7, uranusL0_8, uranusL0_9]

/-- `vsop87d_dict.py` 26885-26984. -/
def uranusL1_0 : List (ℕ × ℕ × ℕ) := [
  (7502543121646, 0, 0), (154458244, 524201658072, 7478159856730),
  (24456413, 171255705309, 148447270830), (9257828, 42844639064, 1104570026390),
  (8265977, 150220035110, 6373589830340), (7841715, 131983607251, 14956319713460),
  (3899105, 46483574024, 393215326310), (2283777, 417367533997, 7626607127560),
  (1926600, 53013080152, 296894541660), (1232727, 158634458237, 7084944530420),
  (791206, 543641224143, 318139373770), (766954, 199555409575, 7329712585900),
  (481671, 298401996914, 8582729883120), (449798, 413826237508, 13851749687070),
  (445600, 372300400331, 22434479570190), (426554, 473126059388, 7181265315070),
  (347735, 245372261286, 956122755560), (353752, 258324496886, 14807872442630),
  (317084, 557855232072, 5269019803950), (179920, 568367730922, 1253017297220),
  (171084, 300060075287, 7871375183040), (205585, 236263144251, 244768055480),
  (158029, 290931969498, 96320784650), (189068, 420242881378, 5662235130260),
  (154670, 559083925605, 445341812490), (183762, 28371004654, 15104766984290),
  (143464, 259049246726, 6225142559510), (151984, 294217326890, 7775054398390),
  (153515, 465186885939, 3516409022120), (121452, 414839204920, 12747179660680),
  (115546, 373224603791, 6522037101170), (102022, 418754517993, 14563104387150),
  (101718, 603385875009, 11187458460), (88202, 399035787994, 1815924726470),
  (87549, 615520787584, 20225339517410), (80530, 264124743934, 2209140052780),
  (72047, 604545933578, 7032818044240), (68570, 405071895264, 7796299230500),
  (59173, 370413919082, 6766805156650), (47267, 354312460519, 35181659230870),
  (42534, 572357370899, 541662597140), (44339, 590865821911, 711354700080),
  (35605, 329197259183, 807675484730), (35524, 332784616138, 7160020482960),
  (36116, 589964278801, 3367961751290), (30608, 546414592601, 16060889739850),
  (31454, 562015632303, 98460033162190), (38544, 491519003848, 22286032299360),
  (34996, 508034112149, 3813303563780), (30811, 549591403863, 5980374504030),
  (28947, 451867390414, 8434282612290), (26627, 554127301037, 13140394986990),
  (29866, 165980844667, 44779581952650), (29206, 114722640419, 46202291352810),
  (25753, 499362028417, 13703302416240), (25373, 573584678604, 38012776796000),
  (21672, 280556379586, 6936497259590), (26605, 614640604128, 29912639426920),
  (22995, 224925345862, 11143016149680), (19246, 355645739672, 5417467074780),
  (21780, 93285892393, 21329909543800), (19338, 186249384092, 10846121608020),
  (16153, 310208165842, 1497785352700), (13126, 195385539499, 8731177153950),
  (13907, 154149045800, 34077089204480), (13549, 438455126720, 593789083320),
  (13102, 588301410143, 621977512350), (11810, 32615567587, 3542472265210),
  (10980, 169230280951, 4557665103870), (12351, 32823896833, 5120572533120),
  (10906, 597068444790, 26598929347750), (11446, 337831545858, 7233391801250),
  (12013, 360395709253, 26992144674060), (11662, 174504271366, 7923501669220),
  (13777, 269028726334, 22582926841020), (12006, 534430562395, 15253214255120),
  (9866, 550316093605, 15349535039770), (10436, 416875643286, 2437902238820),
  (10632, 306875158069, 28414854074220), (9613, 49590148788, 20936694217490),
  (9283, 354479191952, 4164449777560), (9536, 560054956443, 8285835341460),
  (9740, 101087744586, 6884370773410), (9187, 449472579228, 2060692781950),
  (10159, 351765739489, 52969096509460), (8612, 388869873588, 6076695288680),
  (10030, 464790204580, 7722927912210), (8689, 196813580258, 19513984817330),
  (8370, 440914764204, 13458534360760), (9273, 393291227900, 3961750834610),
  (7784, 535626068469, 7574480641380), (7724, 577176047568, 7381839072080),
  (7683, 444252070929, 1401464568050), (8355, 244425910430, 14659425171800),
  (7954, 573093878181, 18472728735580), (7465, 218972405572, 14510977900970),
  (6430, 84582374839, 3219514480460), (6257, 217085130003, 7489347315190),
  (7911, 17275924476, 12035824960600), (7036, 412047266896, 19120769491020)]

/-- `vsop87d_dict.py` 26985-27084. -/
def uranusL1_1 : List (ℕ × ℕ × ℕ) := [
  (6860, 213462553365, 11642609634290), (5191, 311155355454, 10697674337190),
  (4798, 225093144226, 4620979048510), (4566, 345427648666, 75075952540),
  (4401, 394058045671, 659228213900), (4214, 517805765625, 14414657116320),
  (4409, 24427052932, 9294084583200), (4866, 115344187054, 11291463420510),
  (4744, 518229292013, 8100137369080), (4332, 252429167546, 9916062095550),
  (3876, 278430217652, 56511568774670), (3801, 75133837939, 5810682401090),
  (4146, 584943984597, 22137585028530), (3885, 495626104286, 12598732389850),
  (3815, 323004401930, 47928838891550), (3679, 528098232097, 6691729204110),
  (3479, 295514470947, 7466972398270), (3514, 490090391308, 2831117565130),
  (4515, 415474629145, 34470304530790), (4036, 228903172191, 10994568878850),
  (4266, 268534591099, 786430652620), (3428, 2846652682, 14000196957900),
  (3644, 532002093810, 40843894361130), (3252, 144975192429, 12895626931510),
  (4143, 189070487241, 27703499374140), (3177, 4197149544, 22041264243880),
  (3901, 625926496244, 89377187730), (3787, 2516903921, 15274459087230),
  (3200, 52009458683, 228762186040), (2995, 194615440691, 8019822453870),
  (4029, 524603808726, 9687299909510), (3302, 481033551060, 42266603761290),
  (3189, 626156603400, 45639383923560), (2804, 135626949052, 40450679034820),
  (2970, 54327361056, 15912442469020), (3465, 588337990735, 1667477455640),
  (3518, 499649404130, 3664856292950), (3081, 282772472086, 45342489381900),
  (3320, 156223495893, 2357587323610), (2573, 619617997586, 13554855145410),
  (2547, 519937103778, 17394221952280), (2534, 185452635674, 49033408917940),
  (3106, 607067928601, 14244965013380), (3302, 102846689671, 29764192156090),
  (2429, 133640100979, 21181462272970), (2792, 389897022917, 35893013930950),
  (2947, 531528985588, 5513787859430), (2449, 344007536754, 20618554843720),
  (2407, 438551271701, 6055450456570), (2425, 222643225523, 6670484372000),
  (2295, 231690029267, 3149256938900), (2225, 41365126245, 8137388070630),
  (2196, 76281798713, 1752610781830), (2301, 360815987923, 28808069400530),
  (2557, 73679737974, 20076892246580), (2158, 261924330277, 1333332212430),
  (2048, 627204714771, 9889998852460), (2054, 361072687338, 33365734504400),
  (2190, 249696729700, 7647851959670), (2092, 166496421654, 23539049596580),
  (2206, 235938756479, 34788443904560), (2469, 470656858928, 18621176006410),
  (2226, 597327738150, 151429129671650), (1851, 219455296942, 20373786788240),
  (1865, 498207204280, 510780943070), (2171, 549034081907, 37301422095920),
  (1999, 580509154216, 14638180339690), (1903, 432950489567, 4950880430180),
  (1732, 394794012202, 2411838995730), (1747, 246883637489, 5565914345610),
  (1833, 335110048460, 14362530630140), (1686, 128621563322, 10309277421860),
  (1720, 235857527806, 164453140270), (1641, 299507314472, 39117346822390),
  (1610, 97420709262, 97748678462110), (1696, 498332661473, 38724131496080),
  (1527, 315107379811, 742236354150), (1570, 161119571428, 99171387862270),
  (1497, 289637638984, 1964371997300), (1507, 332822127349, 90981873305460),
  (1375, 575263837916, 1912245511120), (1407, 220244941425, 6735923502580),
  (1364, 440006421418, 2708733537390), (1357, 433780029649, 7011573212130),
  (1311, 462202930578, 8189514556810), (1307, 279964247834, 2560286266560),
  (1312, 373623252660, 62885158605010), (1286, 396557527092, 6128821774860),
  (1723, 456068809303, 30534616939270), (1313, 490611014973, 61780588578620),
  (1508, 625017976193, 60447256366190), (1235, 593779486368, 41555249061210),
  (1278, 321119872139, 9204707395470), (1357, 72647086107, 54695644048200),
  (1552, 505296247763, 1029494073850), (1230, 152077038294, 15763995198190),
  (1210, 263049415027, 42659819087600), (1206, 483219370572, 10038446123290),
  (1234, 446203104116, 16209337010680), (1174, 532356191090, 1726547538740)]

/-- `vsop87d_dict.py` 27085-27184. -/
def uranusL1_2 : List (ℕ × ℕ × ℕ) := [
  (1431, 618138614295, 1422709400160), (1244, 16929250603, 2920494752860),
  (1180, 409719023908, 44386366626340), (1180, 331438239649, 4472531777680),
  (1259, 188793196065, 65439130580), (1263, 349967730885, 23056457082540),
  (1168, 204071854201, 3071067209630), (1523, 228101186489, 37390799283650),
  (1429, 205075136274, 18175834193920), (1065, 295960854361, 24161027108930),
  (1253, 23639539817, 56118353448360), (1255, 125819925760, 15578297225810),
  (1044, 289293032709, 54302428721890), (1062, 326314901318, 2857180808220),
  (1124, 106535506684, 8811492069160), (1186, 573445278027, 32972519178090),
  (1190, 282438170535, 4110198105440), (1067, 27101806190, 5831927233200),
  (1017, 430527610005, 6788049988760), (959, 520504598622, 4253826965290),
  (984, 490934403664, 46595506679120), (944, 66925769374, 8879624424780),
  (1017, 437095088461, 1349338081870), (1222, 513450955699, 30061086697750),
  (989, 53937909300, 8071948940050), (890, 309802121989, 11020632121940),
  (1095, 170637576740, 4312897048390), (992, 417968869928, 15401661525950),
  (950, 9841899432, 27310284047830), (870, 477500238443, 3313710079170),
  (867, 422078052532, 2044686912510), (830, 523785245773, 47217484191470),
  (884, 434377463442, 10549227066360), (812, 353258780148, 3935687591520),
  (1055, 152219418153, 22731374111850), (963, 187806076896, 25950888592310),
  (859, 57844232244, 15201087768940), (861, 469213709412, 105938193018920),
  (1084, 279612346618, 4875804477640), (994, 287052008214, 45490936652730),
  (831, 162068330602, 55406998748280), (891, 285026036860, 3224332891440),
  (876, 83921717739, 473530241520), (707, 616918394997, 362333672240),
  (787, 195585343912, 1646232623530), (702, 549557046240, 55800214074590),
  (817, 38724470336, 37864329525170), (804, 225693582099, 1604163511000),
  (866, 180814575866, 25887574647670), (651, 372120167607, 28659622129700),
  (672, 100052727778, 52257741809380), (631, 414839739363, 14169889060840),
  (748, 419441869839, 48640193591630), (668, 77754011576, 12099138905240),
  (619, 431040053492, 45587257437380), (619, 477556598202, 45394615868080),
  (647, 574952736928, 11950691634410), (609, 24149609998, 11791056905120),
  (630, 179018649942, 44068227252570), (601, 141196883461, 21892816973050),
  (719, 427398947015, 5040257617910), (594, 392150462249, 2527279426550),
  (710, 45768559438, 53680451209540), (706, 615599144951, 25802441321480),
  (617, 280636989892, 6856182344380), (587, 547247350993, 76736908292080),
  (690, 348978614301, 83503713448730), (537, 406668446648, 45097721326420),
  (511, 60155300709, 26450482076920), (694, 118127476921, 12991947716160),
  (584, 194104733057, 10627416795630), (522, 595180617510, 51864526483070),
  (507, 439658523394, 12184272231430), (627, 224582628581, 21840690486870),
  (485, 2058107411, 10601353552540), (592, 206072766194, 29615744885260),
  (587, 18557470860, 45809076026500), (483, 150333774574, 15052640498110),
  (474, 499848521665, 45884151979040), (566, 194435189030, 69970103135430),
  (472, 186519720200, 18016199464630), (472, 7145793467, 21648048917570),
  (571, 601195273302, 4706112374700), (460, 376890954025, 34225536475310),
  (489, 296084966272, 38575684225250), (458, 199730631732, 27555052103310),
  (460, 575982407113, 8975945209430), (549, 143219978325, 17165459766240),
  (544, 4821904056, 11439910691340), (450, 194933296558, 14859998928810),
  (444, 294093732205, 69258748435350), (442, 215938034999, 17368158709190),
  (543, 261197342701, 45172797278960), (465, 31777753866, 75632338265690),
  (441, 282271922049, 3271640966640), (538, 239420182072, 33928641933650),
  (569, 84686482736, 26099335863140), (572, 540379754526, 27851946644970),
  (422, 461520857062, 4016002506730), (451, 450911201020, 14214083359310)]

/-- `vsop87d_dict.py` 27185-27284. -/
def uranusL1_3 : List (ℕ × ℕ × ℕ) := [
  (501, 18290112601, 33132153907380), (468, 97688759019, 76025553592000),
  (443, 458896013561, 14967507171920), (428, 102564850231, 46913646052890),
  (500, 434235307579, 16682867252200), (412, 569502940499, 9230770638560),
  (404, 518855270166, 2263391724900), (396, 398515136901, 3123193695810),
  (421, 547567810199, 10400779795530), (425, 350702044406, 18027386923090),
  (415, 152291071520, 49744763618020), (430, 239159932023, 3909624348430),
  (401, 55271143649, 9538852638680), (384, 248712922138, 21033015002140),
  (422, 102056886848, 46824268865160), (465, 572323435231, 18324281464750),
  (383, 263486938783, 68547393735270), (367, 539331524988, 87439401040250),
  (461, 357961254790, 18769623277240), (409, 421780704807, 18105576652360),
  (440, 36380766054, 36797010200330), (392, 544355925956, 2602355379090),
  (431, 383885208954, 25494359321360), (366, 292275490656, 29126208774300),
  (416, 254190330826, 25505546779820), (348, 35176743482, 4647042291600),
  (413, 241518097006, 48322054217860), (386, 476483292968, 26843697403230),
  (344, 20350283971, 18409414790940), (350, 124205287122, 9741551581630),
  (361, 568393391400, 35330106501700), (359, 262171903648, 16289651925890),
  (381, 338777292581, 11494162363460), (352, 276374792259, 29519424100610),
  (340, 134666360560, 3420088237470), (433, 190504858871, 12353964334370),
  (389, 241268196916, 38161224066830), (383, 320416581825, 7944746501330),
  (369, 215185889720, 55555446019110), (370, 219402183275, 56266800719190),
  (327, 340081544565, 30927832265580), (378, 575737470182, 91693228005540),
  (318, 453066393124, 35033211960040), (376, 174845257914, 54547196777370),
  (346, 415815107375, 28266406803390), (319, 438123849114, 15497982310600),
  (320, 81846631878, 61069233878540), (327, 507873875355, 18972322220190),
  (306, 171903179875, 39435486196160), (329, 182999432252, 70681457835510),
  (335, 478622577105, 10931254934210), (310, 508120849869, 37619561469690),
  (327, 187637598331, 20788246946660), (323, 188845451800, 19269216761850),
  (284, 288222063053, 38405992122310), (283, 463187254084, 33217287233570),
  (294, 284554743359, 26747376618580), (285, 97965330777, 11387784205160),
  (319, 509582764612, 28563301345050), (280, 67871105907, 31245971639350),
  (300, 593285242876, 12429040286910), (320, 486151247369, 44868959140380),
  (310, 375000484412, 25357099508990), (311, 559686590720, 27140591944890),
  (316, 189686876211, 22827694896500), (269, 14585942744, 14266209845490),
  (270, 212904548682, 77841478318470), (267, 96560769114, 9082323367730),
  (308, 138454900684, 37539246554480), (298, 399595366039, 45194042111070),
  (278, 338339026214, 34639996633730), (287, 101918432834, 90588657979150),
  (263, 16921968622, 12450285119020), (283, 595865378023, 36286229257260),
  (266, 307331582044, 19365537546500), (264, 547114459575, 13310087089930),
  (288, 278232740152, 181252391910840), (361, 430140629884, 19832124191100),
  (257, 160206491208, 36908206769610), (274, 288347680082, 23390602325750),
  (267, 490554019072, 68154178408960), (305, 155983861329, 4972125262290),
  (253, 50457429429, 31639186965660), (258, 581453094409, 63033605875840),
  (280, 115452517706, 98608480433020), (265, 493584097286, 83110498122420),
  (246, 125186233620, 13406407874580), (298, 575927878031, 90270518605380),
  (240, 284888261768, 4409217833040), (261, 220643594285, 7308467753790),
  (321, 346864827820, 37242352012820), (234, 606783988023, 14711551657980),
  (262, 269623862046, 16772244439930), (267, 405985113852, 7530286342910),
  (240, 48471871511, 17219711438360), (261, 464354183979, 53532003938710),
  (244, 585987959874, 50759956456680), (237, 479666486485, 37715882254340),
  (224, 194589447357, 59342686339800), (226, 371637531808, 44928029223480)]

/-- `vsop87d_dict.py` 27285-27310. -/
def uranusL1_4 : List (ℕ × ℕ × ℕ) := [
  (233, 598739382153, 21989137757700), (240, 271609791875, 22752618943960),
  (221, 223218400256, 46053844081980), (226, 274516124394, 44631134681820),
  (221, 320339807670, 46350738623640), (203, 504975483055, 45787831194390),
  (191, 424841510229, 466586644600), (169, 59358171769, 98311585891360),
  (179, 412060524413, 31017209453310), (187, 622165475247, 29467297614430),
  (162, 130776665222, 24872381809010), (219, 417413407057, 30386169668440),
  (193, 164715944768, 9145637312370), (170, 218067759964, 6618357885820),
  (156, 492094728667, 6818931642830), (145, 551404722738, 28096714700450),
  (144, 581835834612, 7553235809270), (153, 48549989656, 14489733068860),
  (168, 581402201452, 14945132255000), (150, 466632209585, 30683064210100),
  (131, 101359934164, 17516605980020), (174, 303279013213, 29823262239190),
  (163, 197665571311, 22116340196420), (144, 259058085010, 21723124870110),
  (167, 274604167580, 6915252427480), (129, 287574897902, 15615547927360)]

/-- `vsop87d_dict.py` 26884-27311. -/
def uranusL1 : List (ℕ × ℕ × ℕ) := List.flatten [
  uranusL1_0, uranusL1_1, uranusL1_2, uranusL1_3, uranusL1_4]

/-- `vsop87d_dict.py` 27313-27412. -/
def uranusL2_0 : List (ℕ × ℕ × ℕ) := [
  (53033277, 0, 0), (2357636, 226014661705, 7478159856730),
  (769129, 452561041823, 1104570026390), (551533, 325814281023, 6373589830340),
  (541532, 227573907424, 393215326310), (529473, 492348433826, 148447270830),
  (257521, 369059216858, 318139373770), (238835, 585806638405, 14956319713460),
  (181904, 621763603405, 7084944530420), (49401, 603101301723, 5662235130260),
  (53504, 144225240953, 7626607127560), (38222, 178467827781, 5269019803950),
  (44753, 390904910523, 244768055480), (44530, 81152639478, 8582729883120),
  (37403, 446228598032, 296894541660), (33029, 86388149962, 956122755560),
  (24292, 210702559049, 1815924726470), (29423, 509818697708, 7329712585900),
  (22135, 481730808582, 7871375183040), (22491, 599320728691, 13851749687070),
  (17226, 253537183199, 14563104387150), (21392, 239880709309, 7796299230500),
  (20578, 216918786539, 22434479570190), (16777, 346631344086, 1253017297220),
  (12012, 1941361902, 2209140052780), (10466, 445556032593, 6225142559510),
  (11010, 8496274370, 12747179660680), (8668, 425550086984, 711354700080),
  (10476, 516453084068, 7160020482960), (7160, 124903906391, 541662597140),
  (8387, 550115930045, 6766805156650), (6087, 544611674384, 6522037101170),
  (6013, 451836836347, 15104766984290), (5718, 182933915340, 20225339517410),
  (6109, 336320161279, 44779581952650), (6003, 572500086735, 46202291352810),
  (5111, 352374555791, 5980374504030), (5155, 105810305746, 13140394986990),
  (5969, 561147374852, 14807872442630), (5065, 336477113418, 445341812490),
  (4845, 120298837109, 7181265315070), (3979, 67629577193, 7775054398390),
  (3673, 176315074166, 35181659230870), (3149, 383590892865, 4557665103870),
  (3036, 332062892682, 16060889739850), (3033, 614532331482, 7722927912210),
  (3596, 457256025582, 45490936652730), (2664, 536121614612, 26992144674060),
  (2498, 104819496324, 6936497259590), (2307, 269282373897, 8434282612290),
  (2249, 507693376112, 1497785352700), (2228, 138937510191, 28414854074220),
  (2064, 434647674542, 98460033162190), (2105, 232047802326, 12035824960600),
  (1864, 570354779393, 5417467074780), (2005, 387177765185, 19513984817330),
  (1622, 507964536529, 20936694217490), (1597, 48807990368, 13703302416240),
  (1583, 290536212187, 5120572533120), (1725, 625703202673, 4164449777560),
  (2073, 124032244487, 3516409022120), (1543, 215414338268, 7032818044240),
  (1671, 628283232471, 27703499374140), (1494, 604572758571, 8731177153950),
  (1418, 115843502159, 21329909543800), (1239, 463223076077, 9294084583200),
  (1238, 265969680342, 13458534360760), (1273, 587964059822, 6055450456570),
  (1160, 103320781667, 15349535039770), (1430, 468022239016, 29912639426920),
  (1117, 262506108047, 7233391801250), (1142, 464615099782, 15274459087230),
  (974, 285233132493, 22286032299360), (1046, 481299135934, 11642609634290),
  (872, 349659835508, 34077089204480), (952, 210837480840, 2060692781950),
  (964, 246471453524, 38012776796000), (843, 612869288891, 4950880430180),
  (821, 27134156683, 19120769491020), (813, 408930465981, 1422709400160),
  (796, 617066846300, 34470304530790), (924, 211096444289, 1401464568050),
  (791, 238927423348, 5810682401090), (781, 74223115950, 40843894361130),
  (759, 377564054479, 8019822453870), (884, 199930014838, 26598929347750),
  (722, 310001033669, 42266603761290), (750, 233167721991, 35893013930950),
  (687, 202866342040, 3367961751290), (603, 110391172652, 5513787859430),
  (655, 385415269764, 1667477455640), (606, 15052747979, 2831117565130),
  (639, 516714934188, 2357587323610), (658, 75636229109, 7647851959670),
  (590, 173778850095, 807675484730), (565, 492645232089, 3542472265210),
  (656, 234273264083, 3813303563780), (542, 597968975563, 14659425171800),
  (518, 319086220901, 15253214255120), (536, 452808465499, 22041264243880)]

/-- `vsop87d_dict.py` 27413-27463. -/
def uranusL2_1 : List (ℕ × ℕ × ℕ) := [
  (489, 480633294199, 15912442469020), (491, 85765309118, 56511568774670),
  (483, 352583593251, 14414657116320), (521, 521561656321, 20618554843720),
  (477, 425420753202, 36590067395840), (466, 513219663072, 29764192156090),
  (557, 98387565952, 22582926841020), (531, 422534657450, 2920494752860),
  (500, 349663062387, 12895626931510), (445, 260797570173, 9687299909510),
  (466, 605585106742, 7011573212130), (425, 104692398351, 1964371997300),
  (491, 226123398680, 15201087768940), (455, 545520675000, 33365734504400),
  (458, 91654899383, 37301422095920), (520, 572828536642, 11143016149680),
  (432, 104604024916, 12598732389850), (387, 282547341355, 20076892246580),
  (383, 191679738697, 562907429250), (504, 195816731769, 41555249061210),
  (370, 321958844151, 38724131496080), (379, 275940848661, 8189514556810),
  (345, 298021540638, 42977958461370), (368, 620331898497, 45639383923560),
  (335, 529062985955, 1333332212430), (320, 74685222907, 34788443904560),
  (307, 165925943351, 9916062095550), (284, 209437476480, 12991947716160),
  (275, 62680026669, 3149256938900), (339, 165968150805, 14244965013380),
  (270, 279378345550, 97748678462110), (284, 242261530322, 54695644048200),
  (271, 59225635449, 189441906467650), (263, 349309481771, 44068227252570),
  (295, 43376026627, 37390799283650), (271, 482853730065, 56118353448360),
  (248, 572379940676, 7923501669220), (252, 576728095309, 23539049596580),
  (261, 9830739366, 99171387862270), (238, 114634663242, 28808069400530),
  (220, 512386263728, 47928838891550), (263, 152366362053, 14638180339690),
  (230, 35983101967, 10994568878850), (214, 294388765580, 18472728735580),
  (198, 572107161521, 45342489381900), (185, 471600176780, 10846121608020),
  (139, 299832472431, 21181462272970), (167, 119643522280, 3961750834610),
  (180, 80198096578, 18324281464750), (131, 273236351123, 52257741809380),
  (142, 503489222377, 53680451209540)]

/-- `vsop87d_dict.py` 27312-27464. -/
def uranusL2 : List (ℕ × ℕ × ℕ) := List.flatten [
  uranusL2_0, uranusL2_1]

/-- `vsop87d_dict.py` 27466-27511. -/
def uranusL3_0 : List (ℕ × ℕ × ℕ) := [
  (120936, 2418789918, 7478159856730), (68064, 412084267733, 393215326310),
  (52828, 238964061260, 1104570026390), (43754, 295965039734, 148447270830),
  (45300, 204423798410, 318139373770), (45806, 0, 0),
  (24969, 488741307918, 6373589830340), (21061, 454511486862, 7084944530420),
  (19897, 231320314136, 14956319713460), (8901, 157548871761, 5662235130260),
  (4271, 22777319552, 1815924726470), (3613, 539244611308, 7626607127560),
  (3488, 497622811775, 8582729883120), (3479, 412969359977, 5269019803950),
  (3572, 95052448578, 7796299230500), (2328, 85770961794, 14563104387150),
  (2696, 37287796344, 7871375183040), (1946, 267997393431, 711354700080),
  (2156, 565647821519, 956122755560), (1363, 486983744746, 22434479570190),
  (1333, 125032115614, 1253017297220), (1613, 48764377311, 7160020482960),
  (1475, 519957293069, 7329712585900), (1225, 393406822032, 2209140052780),
  (911, 218921999026, 12747179660680), (811, 398323855938, 46202291352810),
  (808, 506374463008, 44779581952650), (718, 34600103024, 562907429250),
  (722, 105856935832, 13851749687070), (687, 293752748595, 13140394986990),
  (463, 158927254512, 15104766984290), (414, 432904287620, 12035824960600),
  (372, 73596518002, 26992144674060), (345, 305968942771, 56118353448360),
  (338, 594221536204, 28414854074220), (343, 401891371998, 54695644048200),
  (382, 593515231196, 4557665103870), (276, 344212110991, 20225339517410),
  (300, 113119175675, 16060889739850), (268, 324615387968, 53680451209540),
  (358, 110916640253, 33365734504400), (236, 465292396535, 38724131496080),
  (204, 581663798296, 37301422095920), (145, 275632381347, 9294084583200),
  (149, 13764106563, 7181265315070), (156, 290936922804, 15349535039770)]

/-- `vsop87d_dict.py` 27465-27512. -/
def uranusL3 : List (ℕ × ℕ × ℕ) := uranusL3_0

/-- `vsop87d_dict.py` 27514-27520. -/
def uranusL4_0 : List (ℕ × ℕ × ℕ) := [
  (113855, 314159265359, 0), (5599, 457882424417, 7478159856730),
  (3203, 34623003207, 1104570026390), (1217, 342199121826, 5662235130260),
  (634, 465759668097, 1815924726470), (171, 380393539303, 14956319713460),
  (133, 435519131657, 6373589830340)]

/-- `vsop87d_dict.py` 27513-27521. -/
def uranusL4 : List (ℕ × ℕ × ℕ) := uranusL4_0

/-- `vsop87d_dict.py` 27522-27522. -/
def uranusL5_0 : List (ℕ × ℕ × ℕ) := [
  (873, 314159265359, 0)]

/-- `vsop87d_dict.py` 27522-27522. -/
def uranusL5 : List (ℕ × ℕ × ℕ) := uranusL5_0

/-- `vsop87d_dict.py` 25934-27523 `_planets[("Uranus", "L")]`. -/
def uranusL : List (List (ℕ × ℕ × ℕ)) :=
  [uranusL0, uranusL1, uranusL2, uranusL3, uranusL4, uranusL5]

/-- `vsop87d_dict.py` 27526-27625. -/
def uranusB0_0 : List (ℕ × ℕ × ℕ) := [
  (1346277639, 261877810545, 7478159856730), (62341405, 508111175856, 14956319713460),
  (61601203, 314159265359, 0), (9963744, 161603876357, 7626607127560),
  (9926151, 57630387917, 7329712585900), (3259455, 126119385960, 22434479570190),
  (2972318, 224367035538, 148447270830), (2010257, 605550401088, 14807872442630),
  (1522172, 27960386377, 6373589830340), (924055, 403822927853, 15104766984290),
  (760624, 614000431923, 7181265315070), (420265, 521279984788, 1104570026390),
  (430668, 355445034854, 21329909543800), (436843, 338082524317, 52969096509460),
  (522309, 332085194770, 13851749687070), (434625, 34065281858, 7775054398390),
  (462630, 74256727574, 8582729883120), (232649, 225716421383, 22286032299360),
  (215838, 159121704940, 3813303563780), (244698, 78795150326, 296894541660),
  (179935, 372487952673, 29912639426920), (174895, 123550262213, 14659425171800),
  (173667, 193654269131, 38012776796000), (160368, 533635436463, 11143016149680),
  (144064, 596239326415, 3516409022120), (102049, 261876256513, 7871375183040),
  (116363, 573877190007, 7084944530420), (106441, 94103112994, 7032818044240),
  (86163, 70262506622, 3961750834610), (72617, 20564696113, 22582926841020),
  (71172, 83343269975, 10994568878850), (57502, 267039425415, 10846121608020),
  (54255, 335166579613, 18472728735580), (44470, 274408231138, 15253214255120),
  (38591, 517394663303, 20225339517410), (39157, 217108251341, 35181659230870),
  (41346, 322134319551, 16060889739850), (35140, 400111634363, 11291463420510),
  (33073, 361378095742, 22137585028530), (31315, 271969470781, 14510977900970),
  (37336, 402053241202, 5269019803950), (32028, 129160071142, 14563104387150),
  (27574, 370064266960, 3664856292950), (24277, 284989187496, 12747179660680),
  (24635, 111645461259, 393215326310), (24315, 548987913644, 7923501669220),
  (21418, 63722900407, 27703499374140), (19826, 259334182230, 8434282612290),
  (22373, 573687615457, 445341812490), (19137, 130214105578, 6225142559510),
  (19789, 472260849557, 29764192156090), (20299, 106070151806, 45490936652730),
  (19768, 577906142568, 30534616939270), (21348, 101350946382, 3367961751290),
  (15142, 291786832554, 42659819087600), (16000, 195535748902, 18621176006410),
  (13819, 267163927171, 7466972398270), (11463, 573391138419, 4110198105440),
  (10741, 373401569675, 105938193018920), (11450, 398177764866, 10697674337190),
  (10360, 475567608732, 18324281464750), (10232, 618772866993, 37390799283650),
  (13803, 570712120608, 7489347315190), (10553, 378602881738, 49033408917940),
  (11838, 596756415681, 8731177153950), (10030, 174828757238, 2209140052780),
  (10107, 92911975959, 6522037101170), (9127, 511093790809, 15349535039770),
  (12093, 253736362742, 956122755560), (8646, 418351923569, 1253017297220),
  (9978, 583600622359, 60447256366190), (11352, 212645777694, 6884370773410),
  (8472, 336885457285, 7233391801250), (7797, 511771906359, 7796299230500),
  (8302, 519247905162, 7722927912210), (7696, 325189037096, 7160020482960),
  (7513, 298265970100, 11439910691340), (6947, 331871016057, 5662235130260),
  (6490, 88434578474, 28808069400530), (6394, 351142812432, 22041264243880),
  (6211, 58222518453, 34077089204480), (6772, 409374798222, 13703302416240),
  (5595, 568643434536, 25950888592310), (5309, 265421183211, 30061086697750),
  (4950, 499672086239, 21989137757700), (6419, 44895727879, 14000196957900),
  (4975, 406722486039, 14362530630140), (5692, 376563463180, 6766805156650),
  (4853, 203383592524, 41555249061210), (3796, 126231186682, 7530286342910),
  (3807, 224787582155, 90981873305460), (3812, 310475682509, 18175834193920),
  (3764, 520052090560, 22731374111850), (3445, 591769433069, 29615744885260),
  (3517, 544397685665, 62885158605010), (3943, 495136058926, 26598929347750),
  (3472, 34737998380, 13140394986990), (3390, 53497504164, 20618554843720),
  (3038, 468314286209, 15912442469020), (3190, 568929316349, 23539049596580)]

/-- `vsop87d_dict.py` 27626-27725. -/
def uranusB0_1 : List (ℕ × ℕ × ℕ) := [
  (3303, 209359507373, 7381839072080), (3069, 449065085092, 6670484372000),
  (3285, 780313833, 7574480641380), (2917, 421615078632, 25802441321480),
  (3747, 82999983666, 7426033370550), (2814, 396708337625, 8285835341460),
  (2474, 381319259323, 711354700080), (2394, 221483198491, 5417467074780),
  (2555, 297023907145, 37864329525170), (2631, 155153254691, 15401661525950),
  (2633, 228385552693, 3219514480460), (2643, 396832729680, 38161224066830),
  (2206, 306995275892, 5980374504030), (2635, 53987945692, 21181462272970),
  (2071, 197429082033, 1815924726470), (2485, 355433846990, 9687299909510),
  (2061, 450102695788, 593789083320), (1916, 160538526374, 8019822453870),
  (2480, 63321072542, 18769623277240), (2039, 297351088965, 19120769491020),
  (1833, 195824865568, 8189514556810), (1719, 222526635038, 47928838891550),
  (1745, 322821992592, 21840690486870), (1857, 166304484985, 98460033162190),
  (1766, 524239122261, 10549227066360), (1524, 605374020264, 9916062095550),
  (1519, 94716867229, 37242352012820), (1614, 339986066169, 23056457082540),
  (1711, 344237080993, 52257741809380), (1504, 134653259405, 7452096613640),
  (1577, 438020936720, 8071948940050), (1360, 548691240270, 7482978267710),
  (1364, 456045715617, 4258645376270), (1398, 33827838973, 14244965013380),
  (1709, 363188407264, 55406998748280), (1360, 289305157919, 7473341445750),
  (1260, 550922979275, 7494165726170), (1374, 439897993200, 26099335863140),
  (1366, 215288773765, 16209337010680), (1244, 497789913094, 14945132255000),
  (1269, 84167691738, 76736908292080), (1278, 453585702916, 29467297614430),
  (1342, 511117141196, 5120572533120), (1180, 79882196802, 11642609634290),
  (1495, 74986873597, 7504223099820), (1207, 367288675913, 2060692781950),
  (1181, 439598416757, 18027386923090), (1248, 313312504066, 6735923502580),
  (1263, 287116663203, 7462153987290), (1380, 376141611602, 9294084583200),
  (1113, 387133607367, 3935687591520), (1018, 620393099094, 83503713448730),
  (962, 330343472839, 25505546779820), (1238, 173023505315, 14967507171920),
  (970, 171236273285, 11588357962170), (1001, 549914631698, 25653994050650),
  (921, 307729879788, 807675484730), (914, 764291274, 53680451209540),
  (911, 623753038018, 20076892246580), (956, 576811833839, 12895626931510),
  (999, 33400530567, 40450679034820), (952, 300456073496, 1497785352700),
  (765, 345454533660, 21478356814630), (800, 320912932090, 2831117565130),
  (799, 411425365829, 12598732389850), (1021, 179905869707, 318139373770),
  (706, 580210566917, 15763995198190), (715, 556313177065, 14638180339690),
  (689, 184748347121, 4164449777560), (682, 516479782395, 7403083904190),
  (673, 265544175682, 7553235809270), (723, 475905991606, 33132153907380),
  (730, 225510749124, 45342489381900), (691, 358561635364, 36286229257260),
  (641, 577408891198, 11020632121940), (671, 596862039131, 13554855145410),
  (631, 197807297205, 63989728631400), (774, 42035450706, 56511568774670),
  (705, 294649553712, 6076695288680), (663, 532574112049, 14214083359310),
  (612, 201741578932, 19513984817330), (749, 556828487823, 244768055480),
  (798, 90969731665, 15201087768940), (747, 507639466593, 8975945209430),
  (650, 456215718085, 21692243216040), (651, 280626026285, 5040257617910),
  (593, 189556258897, 20373786788240), (550, 290625551534, 6818931642830),
  (548, 375628845322, 61780588578620), (554, 278135114877, 1401464568050),
  (530, 351385025328, 29170403072770), (506, 494619342366, 8137388070630),
  (649, 574895589744, 14148644228730), (593, 540734033998, 69258748435350),
  (544, 299910512780, 15274459087230), (485, 236317665443, 44868959140380),
  (481, 581647231299, 13458534360760), (517, 497759795528, 38724131496080),
  (573, 246311368783, 8100137369080), (470, 130184316812, 22827694896500)]

/-- `vsop87d_dict.py` 27726-27808. -/
def uranusB0_2 : List (ℕ × ℕ × ℕ) := [
  (475, 53480492526, 30386169668440), (485, 621247575899, 541662597140),
  (468, 55881267334, 2357587323610), (585, 467924542643, 8879624424780),
  (512, 586200059955, 29318850343600), (445, 250076311432, 90588657979150),
  (501, 479997295899, 30683064210100), (418, 521379084769, 3542472265210),
  (408, 569107313998, 28414854074220), (474, 303149617428, 28659622129700),
  (432, 420907682097, 27851946644970), (506, 205348204197, 37301422095920),
  (410, 530637634877, 9538852638680), (478, 241106642594, 35893013930950),
  (536, 182614772260, 11413847448250), (383, 554541241459, 41948464387520),
  (413, 3813081773, 10309277421860), (368, 408526832792, 158907289528380),
  (369, 182533858431, 33429048449040), (491, 558913582973, 6856182344380),
  (387, 56619310480, 60298809095360), (427, 508349119654, 36797010200330),
  (475, 17507881032, 12035824960600), (342, 527187859255, 2857180808220),
  (407, 200853504718, 67925416222920), (381, 461366060949, 32972519178090),
  (388, 88856038803, 48322054217860), (376, 128856348513, 15578297225810),
  (326, 609140263554, 45639383923560), (318, 9996195379, 6936497259590),
  (292, 511578046796, 37539246554480), (299, 604121646505, 33280601178210),
  (328, 347252263966, 7340900044360), (283, 181773059325, 64701083331480),
  (308, 350154864071, 3071067209630), (283, 188910019831, 2437902238820),
  (278, 385507901929, 76025553592000), (273, 422941219477, 39117346822390),
  (293, 544464406156, 47791579079180), (289, 385492516765, 20936694217490),
  (309, 197045147502, 54302428721890), (324, 557191515554, 50137978944330),
  (248, 217741598681, 61158611066270), (245, 104008534095, 133248477066750),
  (248, 619516038159, 113416352875650), (242, 137720813333, 12125202148330),
  (233, 50933224249, 46202291352810), (319, 424219881040, 32835259365720),
  (244, 600644853640, 29519424100610), (228, 72608678727, 23390602325750),
  (223, 535785607671, 98311585891360), (304, 568101077712, 18918070548070),
  (223, 204168197187, 37093904741990), (245, 469742022955, 31639186965660),
  (217, 433845164683, 26992144674060), (267, 15744446718, 1021328554621100),
  (210, 584975171904, 14711551657980), (224, 304829549918, 143950969814920),
  (226, 72248476212, 4557665103870), (202, 137341689387, 30209533968580),
  (207, 613936312021, 34470304530790), (228, 233602531859, 15052640498110),
  (203, 238070591912, 27555052103310), (194, 511344829813, 121516490244730),
  (259, 278974616768, 14414657116320), (199, 321010368905, 742236354150),
  (246, 615106498377, 621977512350), (180, 470377036870, 51864526483070),
  (186, 385070006482, 4620979048510), (175, 372163733058, 15008446199640),
  (165, 187245210311, 31017209453310), (166, 324028819042, 17394221952280),
  (181, 39521867351, 96320784650), (144, 178180338482, 53117543780290),
  (137, 620635855175, 36945457471160), (136, 400164375048, 52672201967800),
  (141, 402238453909, 35033211960040), (125, 528865037145, 32983706636550),
  (134, 397421067761, 22879821382680), (132, 452023845365, 14859998928810),
  (125, 424724390191, 24872381809010), (120, 408565783859, 15497982310600),
  (133, 316576403244, 26247783133970)]

/-- `vsop87d_dict.py` 27525-27809. -/
def uranusB0 : List (ℕ × ℕ × ℕ) := List.flatten [
  uranusB0_0, uranusB0_1, uranusB0_2]

/-- `vsop87d_dict.py` 27811-27910. -/
def uranusB1_0 : List (ℕ × ℕ × ℕ) := [
  (206366162, 412394311407, 7478159856730), (8563230, 33819986165, 14956319713460),
  (1725703, 212193159895, 7329712585900), (1368860, 306861722047, 7626607127560),
  (1374449, 0, 0), (399847, 284767037795, 22434479570190),
  (450639, 377656180977, 148447270830), (307214, 125456766737, 14807872442630),
  (154336, 378575467747, 6373589830340), (110888, 532888676461, 13851749687070),
  (112432, 557299891505, 15104766984290), (83493, 359152795558, 7181265315070),
  (55573, 340135416354, 8582729883120), (41377, 445476669141, 7871375183040),
  (53690, 170455769943, 7775054398390), (41912, 121476607434, 1104570026390),
  (31959, 377446207748, 22286032299360), (30297, 256371683644, 296894541660),
  (26977, 533695500294, 21329909543800), (26222, 41620628369, 38012776796000),
  (20094, 593085633510, 52969096509460), (22992, 248887389394, 14659425171800),
  (19590, 537213500014, 29912639426920), (20408, 370179681605, 7084944530420),
  (19102, 109213276596, 11143016149680), (19411, 383015453768, 3813303563780),
  (10847, 266326308043, 393215326310), (10249, 231278807720, 10994568878850),
  (9405, 276950513184, 3961750834610), (7660, 181108462850, 22582926841020),
  (8082, 469064168719, 18472728735580), (6584, 550417589189, 3516409022120),
  (7410, 117879753422, 6522037101170), (6451, 498294064391, 7160020482960),
  (6089, 131830108565, 5269019803950), (4768, 590574941745, 14563104387150),
  (4840, 486390682412, 22137585028530), (4192, 329643787103, 7796299230500),
  (4711, 424289069791, 15253214255120), (4894, 601164167429, 16060889739850),
  (3738, 475287390209, 7032818044240), (3481, 64108927026, 15349535039770),
  (3758, 394715595219, 35181659230870), (3114, 10537144899, 11291463420510),
  (2788, 424118032837, 7466972398270), (2505, 4576283378, 29764192156090),
  (2563, 415665405963, 30534616939270), (2544, 525903565788, 5662235130260),
  (2247, 424726481845, 3664856292950), (2541, 40106060407, 7722927912210),
  (2212, 288960413468, 27703499374140), (2299, 357748029365, 18621176006410),
  (2661, 53230319176, 7923501669220), (2157, 210150995852, 12747179660680),
  (2265, 141055702214, 445341812490), (2103, 427438518414, 2209140052780),
  (1861, 375619999278, 14510977900970), (1759, 210240976488, 13140394986990),
  (1661, 484483054269, 6225142559510), (1496, 172084298116, 22041264243880),
  (1659, 586539712478, 45490936652730), (1428, 31508367934, 13703302416240),
  (1522, 100801468633, 7574480641380), (1459, 617427145114, 42659819087600),
  (1463, 514953143442, 8434282612290), (1453, 222988903923, 20618554843720),
  (1358, 585111427068, 18324281464750), (1405, 243582184515, 8731177153950),
  (1495, 555621838458, 6766805156650), (1317, 191178535183, 14000196957900),
  (1068, 151430678116, 37390799283650), (1439, 99170994448, 7489347315190),
  (1065, 415616015505, 28808069400530), (1096, 163909426062, 4110198105440),
  (1189, 90595784409, 3367961751290), (961, 548175535705, 49033408917940),
  (851, 95029849401, 90981873305460), (820, 78610123063, 25950888592310),
  (881, 431294603221, 956122755560), (708, 7309836, 8189514556810),
  (709, 318853632737, 8019822453870), (786, 518884635415, 11439910691340),
  (822, 1949759759, 1815924726470), (656, 616899483115, 9687299909510),
  (879, 182006610038, 7381839072080), (872, 30134022304, 1253017297220),
  (860, 21225398802, 318139373770), (637, 264378420008, 7530286342910),
  (727, 2846968582, 6670484372000), (600, 442462853209, 41555249061210),
  (590, 417885957237, 30061086697750), (610, 607202921132, 21989137757700),
  (611, 97629869063, 29615744885260), (635, 221125075603, 7426033370550),
  (529, 235940463062, 711354700080), (622, 221801944850, 21181462272970),
  (519, 201872911223, 14244965013380), (489, 183419944488, 9294084583200),
  (445, 251784247184, 60447256366190), (413, 536482818305, 8285835341460)]

/-- `vsop87d_dict.py` 27911-27964. -/
def uranusB1_1 : List (ℕ × ℕ × ℕ) := [
  (445, 33164113115, 22731374111850), (456, 244190834824, 38161224066830),
  (378, 191873737843, 20225339517410), (509, 583556856314, 19120769491020),
  (455, 515414537021, 52257741809380), (419, 280644155875, 7233391801250),
  (333, 32014837950, 244768055480), (360, 147248643716, 37864329525170),
  (306, 15517399606, 15912442469020), (301, 446417652272, 53680451209540),
  (353, 48749845867, 12895626931510), (351, 624769322491, 593789083320),
  (298, 171815652029, 23539049596580), (315, 244922921309, 18769623277240),
  (318, 70176359510, 18175834193920), (314, 468400251693, 1497785352700),
  (282, 370093718573, 10846121608020), (272, 391340553608, 61780588578620),
  (273, 329483889428, 38724131496080), (323, 490410549341, 25802441321480),
  (288, 442249612833, 19513984817330), (250, 123231297183, 70363318461740),
  (338, 284645768890, 15401661525950), (297, 116538119842, 14638180339690),
  (248, 490614051989, 4164449777560), (275, 535665949805, 8071948940050),
  (257, 182441994046, 23056457082540), (234, 27679874465, 3313710079170),
  (280, 173679618032, 26598929347750), (229, 49529839431, 7482978267710),
  (229, 418462288684, 7473341445750), (253, 263817804331, 7452096613640),
  (252, 204143912495, 7504223099820), (213, 416218259902, 7462153987290),
  (212, 51761494342, 7494165726170), (201, 454140547837, 2060692781950),
  (194, 417282454759, 11642609634290), (213, 229528235429, 3219514480460),
  (174, 315418942153, 22827694896500), (194, 6960211137, 4258645376270),
  (173, 559700344643, 6884370773410), (159, 491721631097, 14362530630140),
  (150, 92771324396, 40450679034820), (136, 251083022906, 37242352012820),
  (134, 322507836958, 47928838891550), (124, 42063711585, 14945132255000),
  (122, 120639876458, 541662597140), (119, 45375065997, 7403083904190),
  (146, 508207330360, 29467297614430), (118, 422640788890, 7553235809270),
  (118, 150613822829, 34470304530790), (121, 213544759505, 20936694217490),
  (121, 608239076370, 26099335863140), (154, 418369977366, 3935687591520)]

/-- `vsop87d_dict.py` 27810-27965. -/
def uranusB1 : List (ℕ × ℕ × ℕ) := List.flatten [
  uranusB1_0, uranusB1_1]

/-- `vsop87d_dict.py` 27967-28026. -/
def uranusB2_0 : List (ℕ × ℕ × ℕ) := [
  (9211656, 580044305785, 7478159856730), (556926, 0, 0),
  (286265, 217729776353, 14956319713460), (94969, 384237569809, 7329712585900),
  (45419, 487822046064, 7626607127560), (20107, 546264485369, 148447270830),
  (14793, 87983715652, 13851749687070), (13963, 507234043994, 6373589830340),
  (14261, 284517742687, 14807872442630), (10122, 500290894862, 22434479570190),
  (8299, 626655615197, 7871375183040), (4729, 516274174929, 7181265315070),
  (3816, 628224514574, 8582729883120), (3488, 353472172445, 1104570026390),
  (2555, 144444215715, 15104766984290), (2353, 423069776466, 393215326310),
  (2585, 41383633246, 7160020482960), (1394, 413126838571, 14659425171800),
  (1183, 368471361409, 7775054398390), (1103, 554212014132, 22286032299360),
  (1205, 505109252937, 38012776796000), (1146, 195280464754, 52969096509460),
  (977, 152652616357, 7796299230500), (1025, 433698643491, 296894541660),
  (858, 278728745263, 11143016149680), (868, 555175791193, 3813303563780),
  (633, 41074353315, 21329909543800), (596, 539265533517, 12747179660680),
  (586, 400404667232, 10994568878850), (543, 240369406419, 15349535039770),
  (486, 205237757516, 29912639426920), (557, 313408880388, 6522037101170),
  (457, 396543219832, 45490936652730), (481, 281511187371, 16060889739850),
  (421, 216819778071, 5662235130260), (326, 452920012430, 3961750834610),
  (308, 626508780547, 7032818044240), (338, 514594268587, 318139373770),
  (288, 47061435406, 2209140052780), (336, 423512034174, 3516409022120),
  (316, 393430525759, 5269019803950), (306, 110359318443, 7084944530420),
  (250, 358780257084, 20225339517410), (239, 477679306080, 8731177153950),
  (227, 274138067839, 1253017297220), (263, 159203582407, 8434282612290),
  (215, 388195737361, 13140394986990), (216, 580700510713, 7466972398270),
  (264, 182574036051, 7722927912210), (222, 4111883550, 18472728735580),
  (197, 156602555362, 956122755560), (193, 226416938160, 7574480641380),
  (179, 269065316892, 14563104387150), (170, 275844544119, 7381839072080),
  (155, 355393249110, 1815924726470), (174, 476111441901, 27703499374140),
  (140, 28714762870, 22137585028530), (134, 129065526326, 20618554843720),
  (127, 617908901556, 6225142559510), (116, 626646620658, 22041264243880)]

/-- `vsop87d_dict.py` 27966-28027. -/
def uranusB2 : List (ℕ × ℕ × ℕ) := uranusB2_0

/-- `vsop87d_dict.py` 28029-28044. -/
def uranusB3_0 : List (ℕ × ℕ × ℕ) := [
  (267832, 125097888291, 7478159856730), (11048, 314159265359, 0),
  (6154, 400663614486, 14956319713460), (3361, 577804694935, 7329712585900),
  (1602, 105657834344, 6373589830340), (1265, 166795295537, 7871375183040),
  (1183, 258856450374, 13851749687070), (1087, 28687213135, 7626607127560),
  (640, 187238784591, 7160020482960), (590, 80206040001, 148447270830),
  (467, 442872012006, 14807872442630), (272, 400684090176, 8582729883120),
  (203, 60406901282, 7181265315070), (180, 555657564049, 393215326310),
  (168, 467745630044, 7084944530420), (170, 293672195979, 1104570026390)]

/-- `vsop87d_dict.py` 28028-28045. -/
def uranusB3 : List (ℕ × ℕ × ℕ) := uranusB3_0

/-- `vsop87d_dict.py` 28047-28048. -/
def uranusB4_0 : List (ℕ × ℕ × ℕ) := [
  (5719, 285499529315, 7478159856730), (300, 314159265359, 0)]

/-- `vsop87d_dict.py` 28046-28049. -/
def uranusB4 : List (ℕ × ℕ × ℕ) := uranusB4_0

/-- `vsop87d_dict.py` 27524-28050 `_planets[("Uranus", "B")]`. -/
def uranusB : List (List (ℕ × ℕ × ℕ)) :=
  [uranusB0, uranusB1, uranusB2, uranusB3, uranusB4]

/-- `vsop87d_dict.py` 28053-28152. -/
def uranusR0_0 : List (ℕ × ℕ × ℕ) := [
  (1921264847881, 0, 0), (88784984055, 560377526994, 7478159856730),
  (3440835545, 32836098991, 7329712585900), (2055653495, 178295170028, 14956319713460),
  (649321851, 452247298119, 7626607127560), (602248144, 386003820462, 6373589830340),
  (496404171, 140139934716, 45490936652730), (338525522, 158002682946, 13851749687070),
  (243508222, 157086595074, 7181265315070), (190521915, 199809364502, 148447270830),
  (161858251, 279137863469, 14807872442630), (143705902, 138368574483, 1104570026390),
  (93192359, 17437193645, 3664856292950), (71424265, 424509327405, 22434479570190),
  (89805842, 366105366329, 10994568878850), (39009624, 166971128869, 7084944530420),
  (46677322, 139976563936, 3516409022120), (39025681, 336234710692, 27703499374140),
  (36755160, 388648934736, 14659425171800), (30348875, 70100446346, 15104766984290),
  (29156264, 318056174556, 7775054398390), (20471584, 155588961500, 20225339517410),
  (25620360, 525656292802, 38012776796000), (25785805, 378537741503, 8582729883120),
  (22637152, 72519137745, 52969096509460), (20473163, 279639811626, 7032818044240),
  (17900561, 55455488605, 296894541660), (12328151, 596039150918, 12747179660680),
  (14701566, 490434406648, 10846121608020), (11494701, 43774027872, 6522037101170),
  (15502809, 535405037603, 3813303563780), (10792699, 142104858472, 21329909543800),
  (11696085, 329825599114, 393215326310), (11959355, 175044072173, 98460033162190),
  (12896507, 262154018241, 11143016149680), (11852996, 99342814582, 5269019803950),
  (9111446, 499638600045, 6225142559510), (8420550, 525350716616, 22286032299360),
  (7449125, 79491905956, 35181659230870), (8402147, 503877516489, 41555249061210),
  (6046370, 567960948357, 7871375183040), (5524133, 311499484161, 956122755560),
  (7329454, 397277527840, 18324281464750), (5444878, 510575635361, 14510977900970),
  (5238103, 262960141797, 3367961751290), (4079167, 322064788674, 34077089204480),
  (3801606, 610985558505, 18472728735580), (3919476, 425015288873, 3961750834610),
  (2940492, 214637460319, 13703302416240), (3781219, 345840272873, 45639383923560),
  (2942239, 42393808854, 29912639426920), (3686787, 248718116535, 45342489381900),
  (3101743, 414031063896, 21989137757700), (2962641, 82977991995, 5662235130260),
  (2937799, 367657450930, 14000196957900), (2865128, 30996903761, 1253017297220),
  (2538032, 485457831993, 13140394986990), (1962510, 524342224065, 8434282612290),
  (2363550, 44253328372, 55406998748280), (1979394, 612836181686, 10697674337190),
  (2182572, 294040431638, 30534616939270), (1962974, 4114739120, 22137585028530),
  (1829560, 401105771632, 6884370773410), (1642920, 35564102554, 6766805156650),
  (1584850, 316267171762, 22582926841020), (1848655, 291111759376, 90981873305460),
  (1632430, 423061792837, 2209140052780), (1401390, 139084023521, 26598929347750),
  (1403717, 563563637532, 445341812490), (1655866, 196431297431, 7923501669220),
  (1248978, 544027380866, 5417467074780), (1563447, 147917835549, 11291463420510),
  (1248054, 488984353601, 47928838891550), (1197439, 252185744943, 14563104387150),
  (1506952, 524186185583, 18175834193920), (1481746, 566203046912, 15253214255120),
  (1438838, 153046287618, 44779581952650), (1408514, 441921749601, 46202291352810),
  (1477112, 432214690647, 25653994050650), (1228314, 597703331040, 5980374504030),
  (1249958, 624484546141, 16060889739850), (906468, 562025869483, 7466972398270),
  (1090681, 415393813845, 7796299230500), (844931, 12943398585, 8285835341460),
  (900363, 237315925843, 7489347315190), (1071957, 174286714339, 52820649238630),
  (689708, 308097059985, 6936497259590), (593798, 450074517056, 807675484730),
  (718559, 400047509264, 12895626931510), (699574, 3987168068, 14362530630140),
  (575656, 589552672641, 6670484372000), (759004, 213700057433, 69258748435350),
  (710449, 541605755095, 21840690486870), (548672, 562811496970, 318139373770),
  (651632, 442340061551, 1815924726470), (539825, 620788667166, 7160020482960),
  (544539, 569375108253, 20373786788240), (710276, 421967260022, 38161224066830),
  (593819, 383805798523, 3219514480460), (710134, 448972171999, 29318850343600)]

/-- `vsop87d_dict.py` 28153-28252. -/
def uranusR0_1 : List (ℕ × ℕ × ℕ) := [
  (705482, 45521177725, 83503713448730), (588000, 508252923316, 18621176006410),
  (598231, 35815291076, 26992144674060), (641914, 271127457036, 8731177153950),
  (495621, 265094755989, 20076892246580), (630252, 446146214548, 27555052103310),
  (575195, 557862480486, 244768055480), (569870, 163930932740, 7722927912210),
  (556672, 107231961344, 105938193018920), (449439, 27981733949, 61780588578620),
  (463608, 143448297993, 29764192156090), (436547, 52802035072, 20936694217490),
  (463938, 235443114417, 21181462272970), (435943, 210077211065, 151429129671650),
  (515534, 323274579379, 28414854074220), (454879, 408364210459, 9916062095550),
  (477430, 289397217998, 3935687591520), (542331, 539481705077, 27851946644970),
  (410087, 304968860441, 40450679034820), (367848, 71159607058, 12598732389850),
  (503096, 583931251717, 19120769491020), (487532, 6402454583, 6076695288680),
  (455043, 259321186669, 49033408917940), (436291, 208183813746, 5120572533120),
  (435803, 279445203085, 7574480641380), (323546, 482899980859, 19513984817330),
  (359363, 868012078, 3542472265210), (429314, 308031550488, 4110198105440),
  (320021, 548625497747, 1497785352700), (414331, 9012800478, 25802441321480),
  (379715, 5832815311, 37864329525170), (420062, 225393983318, 8100137369080),
  (357721, 471414305625, 17394221952280), (358922, 35213227553, 42659819087600),
  (405410, 612263257999, 2437902238820), (365158, 559483211224, 25505546779820),
  (308102, 392355394354, 11642609634290), (325660, 471996698332, 13458534360760),
  (292781, 399521194830, 7233391801250), (386543, 68619006966, 23056457082540),
  (305686, 376108783519, 34470304530790), (286972, 184990335310, 15349535039770),
  (353640, 465717995107, 32983706636550), (302051, 13190003806, 56511568774670),
  (241128, 160454142389, 8137388070630), (249829, 424205256241, 7530286342910),
  (245063, 594905404273, 2060692781950), (248277, 106282887181, 10549227066360),
  (305353, 255534744586, 620829425142410), (296328, 421100245276, 136472809958190),
  (219938, 296119055727, 12035824960600), (233564, 297074409938, 4620979048510),
  (262422, 383652250971, 83110498122420), (233546, 448117006140, 62885158605010),
  (187432, 303529190348, 13554855145410), (216776, 342907414802, 24161027108930),
  (255760, 116707893460, 17787437278590), (220458, 19633492290, 18027386923090),
  (224519, 40677777819, 11439910691340), (205398, 230380942634, 25950888592310),
  (211106, 493079982424, 10309277421860), (175758, 550822822216, 711354700080),
  (188512, 223588941288, 541662597140), (171718, 521730232334, 4164449777560),
  (176136, 195958319897, 75632338265690), (170447, 494978757413, 20618554843720),
  (169454, 404319823722, 5565914345610), (219015, 24790282027, 29467297614430),
  (187768, 204538775456, 40843894361130), (182258, 70728384467, 39117346822390),
  (192095, 576718231319, 29170403072770), (153684, 470659406659, 54302428721890),
  (170043, 450995820508, 28808069400530), (164097, 522527540372, 6735923502580),
  (194341, 611690364710, 41406801790380), (168027, 525810639105, 51864526483070),
  (156641, 66304836778, 22041264243880), (182330, 78383856974, 41703696332040),
  (167462, 492241597775, 42266603761290), (170770, 230927162659, 9889998852460),
  (161678, 327259601116, 44386366626340), (132763, 288875442023, 37390799283650),
  (161140, 382341391177, 45194042111070), (179292, 482405681293, 36648562929500),
  (178153, 398026039043, 1013850394764370), (141929, 126972581554, 15912442469020),
  (153750, 427847681414, 4557665103870), (161513, 499545008738, 7381839072080),
  (146315, 265664902119, 46595506679120), (124875, 430470898895, 33928641933650),
  (154620, 432046228120, 76025553592000), (142894, 207773752143, 45787831194390),
  (152408, 464742446768, 15578297225810), (116389, 443513730944, 593789083320),
  (113444, 465351596266, 8019822453870), (107611, 377290419929, 14244965013380),
  (133740, 530894739047, 1401464568050), (116104, 251182725670, 29615744885260),
  (129106, 36277717661, 9687299909510), (122766, 238341351026, 14148644228730)]

/-- `vsop87d_dict.py` 28253-28352. -/
def uranusR0_2 : List (ℕ × ℕ × ℕ) := [
  (101368, 105739625315, 9230770638560), (114669, 624863527978, 76736908292080),
  (113283, 83051319425, 10038446123290), (107199, 239365512354, 34788443904560),
  (95443, 80094579583, 34225536475310), (110789, 38651051525, 21692243216040),
  (126978, 42359358250, 33132153907380), (112635, 8107814739, 55800214074590),
  (103166, 69792283389, 35893013930950), (111474, 75023459027, 8071948940050),
  (90902, 516530481614, 14414657116320), (90677, 22036476597, 33365734504400),
  (98568, 433164222339, 7452096613640), (89306, 218851161761, 7482978267710),
  (117216, 394965784596, 7426033370550), (89088, 587783179087, 7473341445750),
  (97316, 69429695020, 97748678462110), (116587, 183677031994, 128994650101460),
  (85449, 580255966149, 659228213900), (86823, 561973473261, 30061086697750),
  (105226, 594513614941, 32835259365720), (112117, 121168089807, 32972519178090),
  (82982, 220797412496, 7494165726170), (94345, 453937998713, 2857180808220),
  (106847, 182071328579, 30683064210100), (103572, 299368274596, 621977512350),
  (106357, 81583874750, 108769310584050), (77728, 273390123734, 11020632121940),
  (98405, 373478182667, 7504223099820), (86231, 283316881064, 98311585891360),
  (89023, 473754458960, 60447256366190), (83013, 188273535999, 38724131496080),
  (90227, 380367274711, 98608480433020), (84598, 125774132938, 14214083359310),
  (74690, 135097482767, 35033211960040), (95770, 554845504768, 96962247809490),
  (90277, 36773710508, 96320784650), (82748, 585590525764, 7462153987290),
  (75828, 278019216029, 8811492069160), (83850, 184386358668, 22731374111850),
  (70705, 465567024014, 4472531777680), (71322, 364963906751, 89484087952760),
  (94141, 498819201726, 40313419222450), (88966, 443895583278, 15401661525950),
  (79436, 566662613679, 26747376618580), (75615, 540971072536, 5040257617910),
  (68583, 476679841388, 99171387862270), (65256, 69286370395, 15274459087230),
  (63031, 289946567712, 7988940799800), (63878, 9820555288, 68154178408960),
  (80101, 297520561915, 52672201967800), (69693, 395281159807, 18769623277240),
  (59492, 359642351692, 5810682401090), (59273, 50930692071, 2831117565130),
  (68590, 241880311530, 23539049596580), (66007, 504558399435, 3071067209630),
  (70223, 373647415486, 54695644048200), (66836, 85506033017, 52257741809380),
  (63027, 29269109052, 11950691634410), (62023, 231557510311, 7403083904190),
  (71379, 316967571102, 2357587323610), (74827, 536812537961, 37301422095920),
  (64204, 236817149460, 15763995198190), (70712, 55830476304, 9294084583200),
  (55762, 527011035858, 87439401040250), (75638, 466344127677, 10186893394120),
  (73727, 620581665991, 31245971639350), (72940, 58406607757, 36797010200330),
  (53230, 224728742995, 1752610781830), (63139, 459563922296, 6788049988760),
  (60550, 57591315857, 25357099508990), (52946, 245947017614, 26450482076920),
  (70236, 151860943454, 55258551477450), (68624, 244507780453, 55555446019110),
  (62796, 33786296181, 56118353448360), (49009, 109233728279, 1912245511120),
  (64636, 527469970900, 6818931642830), (62957, 535891188483, 9204707395470),
  (47664, 390924952181, 19269216761850), (65279, 423629510074, 77130123618390),
  (65190, 373942854797, 53680451209540), (59452, 610554259948, 36500115658670),
  (52153, 171734604937, 90588657979150), (46035, 387093684776, 21033015002140),
  (46429, 597423131576, 47780391620720), (62115, 267544358037, 13044074202340),
  (46038, 389378239085, 4875804477640), (42663, 381519760715, 6128821774860),
  (53909, 286457147106, 35330106501700), (46936, 100011046774, 16682867252200),
  (42217, 261748790314, 9082323367730), (43324, 415777895713, 17368158709190),
  (41296, 179930408254, 14945132255000), (44960, 176623306927, 52126486180),
  (51904, 297773319756, 38309671337660), (42931, 157416456203, 12099138905240),
  (49611, 403427920470, 30386169668440), (45263, 358382163089, 9741551581630),
  (38695, 239404211169, 3149256938900), (38072, 579473670350, 7553235809270)]

/-- `vsop87d_dict.py` 28353-28452. -/
def uranusR0_3 : List (ℕ × ℕ × ℕ) := [
  (50126, 476412907201, 91130320576290), (50884, 515513957132, 43978275515400),
  (43148, 84999004804, 5831927233200), (42732, 517318058934, 16209337010680),
  (50298, 581603435915, 6691729204110), (35639, 187447823723, 47217484191470),
  (49963, 188943490790, 4258645376270), (39974, 174262050679, 8975945209430),
  (45252, 192511912328, 5513787859430), (44896, 148355901890, 45097721326420),
  (34297, 520257496546, 31639186965660), (46355, 33942039181, 27310284047830),
  (37152, 203757941865, 11791056905120), (46106, 562315633955, 181963746610920),
  (39368, 419402806344, 48640193591630), (41039, 482994471947, 14967507171920),
  (44959, 72694662195, 326583082813250), (43617, 75332422672, 40461866493280),
  (31823, 384768075667, 2044686912510), (44196, 436769721266, 41826080359780),
  (37900, 302928044053, 16708930495290), (43684, 157328182739, 49155792945680),
  (34004, 126257052908, 26099335863140), (31276, 416123711648, 1333332212430),
  (39984, 286626125620, 46824268865160), (36490, 258804294589, 6856182344380),
  (32364, 311577354875, 10335340664950), (33857, 15592410716, 2411838995730),
  (35933, 136784550071, 5928248017850), (33633, 75501177400, 29021955801940),
  (29751, 533178627038, 103335837639830), (32036, 467549858000, 20522234059070),
  (30991, 462823866461, 25887574647670), (35268, 100718464327, 110813997496560),
  (33366, 340738625377, 4312897048390), (32638, 525485850258, 11413847448250),
  (29825, 564157476876, 25494359321360), (31613, 378231393110, 15201087768940),
  (30980, 226660677937, 10400779795530), (34591, 517326577255, 2560286266560),
  (28398, 176872790446, 82005928096030), (27991, 392486885309, 19928444975750),
  (28986, 258171811759, 7647851959670), (33772, 579359878723, 27406604832480),
  (29401, 593638676504, 28096714700450), (31094, 139352495971, 17878939652260),
  (30118, 44367887423, 2708733537390), (33820, 626168443513, 40164971951620),
  (27513, 215194454461, 48077286162380), (26880, 251300272780, 12353964334370),
  (26139, 21985367371, 28659622129700), (26455, 388229792258, 37242352012820),
  (33974, 144637843871, 8879624424780), (30107, 82723915882, 10064509366380),
  (27715, 464827434185, 19832124191100), (33687, 114348201049, 8248584639910),
  (26493, 197889544238, 9538852638680), (24355, 237839176150, 14638180339690),
  (26590, 39881920389, 10601353552540), (27006, 210206230691, 105789745748090),
  (23976, 621233637686, 1667477455640), (30970, 534005431547, 47643131808350),
  (24073, 342953641968, 104440407666220), (27023, 71284764471, 24872381809010),
  (29098, 399184722502, 90833426034630), (22862, 226978781393, 17516605980020),
  (24026, 36584131268, 7318525127440), (28024, 346485782266, 143950969814920),
  (22034, 5163807300, 3313710079170), (22185, 532252126255, 48322054217860),
  (21027, 37224660652, 21478356814630), (20548, 180004483299, 11802244363580),
  (27835, 412412553530, 69407195706180), (25500, 549632191634, 11588357962170),
  (21377, 389179204956, 6618357885820), (27201, 576148797900, 121516490244730),
  (24984, 65339418015, 13288842257820), (23976, 456161326826, 45884151979040),
  (21116, 113610706250, 6055450456570), (26263, 277532723118, 49007345674850),
  (26369, 337120039300, 4972125262290), (22870, 453135637620, 7840493528970),
  (26872, 326037129303, 69110301164520), (25004, 365018677651, 7340900044360),
  (20874, 392589972978, 13406407874580), (20915, 553955400138, 12991947716160),
  (23067, 256806856688, 33280601178210), (22630, 502721554401, 15052640498110),
  (19123, 192386327535, 12450285119020), (20678, 98302410602, 2920494752860),
  (18755, 107911898422, 7011573212130), (19458, 133847349577, 61632141307790),
  (23071, 393152899657, 4328902917830), (23313, 61185525008, 18972322220190),
  (19660, 140884902649, 158907289528380), (24990, 91842956919, 44126722786230),
  (23555, 2127675886, 59342686339800), (18288, 455111843462, 16560483224460),
  (20980, 88504201898, 32686812094890), (24940, 463470443286, 16289651925890)]

/-- `vsop87d_dict.py` 28453-28552. -/
def uranusR0_4 : List (ℕ × ℕ × ℕ) := [
  (18941, 510763304564, 8189514556810), (18911, 123351635328, 1349338081870),
  (17358, 405768226252, 40302231763990), (17362, 528607227640, 786430652620),
  (22513, 315059891398, 41974527630610), (21237, 214856256664, 7558474771940),
  (17845, 254349200329, 4706112374700), (16995, 248647736969, 204398226181110),
  (23676, 580355919955, 23204904353370), (22639, 207623129509, 69970103135430),
  (19261, 156494156016, 42511371816770), (21067, 530844438236, 23767811782620),
  (22733, 28303126440, 11187458460), (16372, 345984005656, 75075952540),
  (21213, 95828006612, 40599126305650), (18033, 160723214246, 21543795945210),
  (16267, 489002016360, 6915252427480), (21738, 324738839789, 174485586754190),
  (16149, 35803995032, 7706922042770), (21710, 88800040769, 34496367773880),
  (17204, 604366142241, 3224332891440), (17883, 401076173641, 28000393915800),
  (15918, 296623390816, 2586349509650), (14769, 373887340623, 61069233878540),
  (15033, 424825484707, 22827694896500), (15586, 507987082740, 11494162363460),
  (15392, 22971106129, 1726547538740), (15354, 25482391126, 66109491496450),
  (14617, 113349626273, 82399143422340), (16232, 343499743810, 14711551657980),
  (14654, 168288566884, 20788246946660), (17682, 594376629143, 62491943278700),
  (18837, 138335408070, 37715882254340), (15425, 166489033237, 44068227252570),
  (14764, 441710614445, 1646232623530), (14402, 41359448817, 14266209845490),
  (16992, 16042368544, 43829828244570), (13268, 304634728126, 66820846196530),
  (16460, 92068542861, 36908206769610), (17239, 451659246818, 60676018552230),
  (13238, 13650358961, 21648048917570), (15832, 494315562971, 12429040286910),
  (14374, 293700606008, 41948464387520), (12927, 165950183061, 5433472944220),
  (14224, 442286781619, 4769426319340), (12753, 3020931725, 21723124870110),
  (14792, 108447500622, 4950880430180), (14031, 368785757687, 1604163511000),
  (13709, 478890618802, 7277586099720), (13073, 154064778942, 21892816973050),
  (17474, 505621281434, 56485505531580), (12686, 344640888880, 95857677783100),
  (13035, 56445754615, 117187587326900), (12458, 329187197133, 90270518605380),
  (11893, 141294011193, 5577101804070), (15018, 343209569509, 1901058052660),
  (16470, 204067754807, 41162033734900), (15619, 153464600544, 83355266177900),
  (15678, 592839374034, 77841478318470), (12039, 517748353434, 13533610313300),
  (15523, 354656631824, 11387784205160), (14364, 419825110964, 8933876096900),
  (15424, 212697366269, 10627416795630), (11957, 143314130608, 45587257437380),
  (15938, 549575810978, 51307988101300), (13532, 411463529983, 9522846769240),
  (15105, 186350524526, 770424783180), (15832, 342498484109, 7951690098250),
  (11492, 465187455620, 14961138124440), (11406, 131085455047, 6362402371880),
  (14469, 335284802718, 1964371997300), (11953, 20979051344, 6587476231750),
  (12039, 1423238410, 39739324334740), (14157, 187440535404, 628307584999140),
  (11357, 19079103112, 562907429250), (14109, 9348109701, 613351265285680),
  (15322, 354468546172, 25265597135320), (11681, 85100356112, 510780943070),
  (14134, 566340426198, 63989728631400), (11052, 47607339302, 15008446199640),
  (11507, 519480309409, 118292157353290), (11492, 205801478181, 14951501302480),
  (11571, 478210724970, 33429048449040), (10671, 467373109923, 14972325582900),
  (11651, 313272450186, 9390405367850), (14316, 8421279341, 24038643081190),
  (10855, 452379396618, 45394615868080), (11900, 141784572428, 2602355379090),
  (10851, 440625021974, 5714361616440), (13385, 76174742916, 3787240320690),
  (10664, 581644528276, 19365537546500), (10700, 534595506070, 33120966448920),
  (10465, 382648204886, 18016199464630), (13350, 86920479636, 2289454967990),
  (10324, 299969783109, 52575881183150), (14293, 106904465002, 47791579079180),
  (12341, 462813430535, 189441906467650), (12539, 370404881494, 6707735073550),
  (11771, 107971321862, 36351668387840), (11466, 93528386040, 12184272231430)]

/-- `vsop87d_dict.py` 28553-28652. -/
def uranusR0_5 : List (ℕ × ℕ × ℕ) := [
  (12839, 31988787839, 47494684537520), (10194, 623976471898, 8418276742850),
  (12300, 285238700423, 18409414790940), (13861, 348367688770, 15726744496640),
  (11395, 425533440680, 18105576652360), (10146, 601371693363, 4324084506850),
  (9889, 1753733887, 4016002506730), (10798, 246364243940, 14065636088480),
  (9893, 272219544398, 38405992122310), (11012, 377284307154, 49426624244250),
  (10226, 149169427598, 8041067285980), (11981, 269741212203, 36945457471160),
  (10658, 178702880970, 25208652238160), (12506, 466852994807, 6469910614990),
  (11640, 570405852396, 3909624348430), (12305, 173322306013, 22908009811710),
  (9954, 372074935511, 23390602325750), (11004, 358723041577, 44928029223480),
  (10581, 279550711884, 124665747183630), (10411, 286727145530, 18918070548070),
  (9259, 519834823120, 74920983565610), (12468, 76477162698, 12247586176070),
  (10099, 606894682979, 15615547927360), (12671, 619797171716, 14982382956550),
  (9053, 99447742265, 10931254934210), (9595, 100827882958, 39346109008430),
  (10455, 123531019351, 14859998928810), (10645, 550399216121, 46053844081980),
  (12433, 529843661600, 2049505323490), (9002, 551216892840, 13310087089930),
  (9882, 568987366321, 4253826965290), (12110, 314577799081, 3005628079050),
  (10380, 354528360301, 61929035849450), (10139, 190528799801, 2506034594440),
  (11206, 587823238990, 83258945393250), (9283, 300514787072, 75483890994860),
  (10994, 5721003392, 5428654533240), (8981, 582462023723, 24846318565920),
  (8634, 549123270314, 44868959140380), (9390, 132674472283, 940116886120),
  (9621, 569090299390, 7388782669000), (10843, 142812648220, 26843697403230),
  (10874, 261361741990, 44631134681820), (9681, 427051176079, 28266406803390),
  (10770, 19304986906, 46350738623640), (8223, 330114329151, 17219711438360),
  (10216, 504428111805, 24187090352020), (8890, 253320903906, 27140591944890),
  (10621, 439013117792, 6384777288800), (9085, 99085954236, 690109867970),
  (10414, 496367476854, 9767614824720), (8382, 503764591595, 37093904741990),
  (8791, 305426995163, 29126208774300), (8629, 14674938050, 26247783133970),
  (9673, 425597330570, 60298809095360), (7939, 571230451368, 54153981451060),
  (7981, 235900017752, 19662432088160), (7941, 88239951788, 15497982310600),
  (8212, 845991197, 7642612997000), (10135, 190258069764, 9145637312370),
  (8948, 431891786278, 46913646052890), (9906, 61122653279, 30831511480930),
  (8257, 461012292958, 6967378913660), (10291, 358217488981, 84215068148810),
  (10672, 228920805112, 19428851491140), (9024, 70282370018, 68547393735270),
  (7552, 486800510978, 109709427470170), (9496, 106662350720, 9379217909390),
  (8413, 315290837718, 3271640966640), (8914, 503579282562, 45045594840240),
  (8008, 433420849497, 30209533968580), (10397, 490564475822, 82962050851590),
  (7401, 567595616187, 33780194662820), (7419, 304672439120, 742236354150),
  (7936, 437116642726, 46447059408290), (9731, 570393303400, 9835747180340),
  (9287, 416913084905, 1549911838880), (10072, 118963356664, 62173803904930),
  (9867, 134469368253, 14297091499560), (8913, 133679256423, 26063243090),
  (8734, 203651443558, 14940313844020), (7745, 14834225031, 140408497549710),
  (9037, 353203542312, 63666770846650), (7707, 187083579542, 3165262808340),
  (8566, 248280357910, 49744763618020), (10074, 259066128203, 71144930703380),
  (8726, 588905195509, 8220396210880), (9218, 110861658464, 41258354519550),
  (9483, 602304095716, 91693228005540), (7012, 627635752748, 37619561469690),
  (9867, 193140204720, 6277269045690), (7121, 154192963162, 67925416222920),
  (8440, 506400284478, 137259812370), (8915, 239052372377, 7615419669100),
  (9637, 378128664809, 83821852822500), (7059, 591499106809, 7414845912090),
  (9570, 197721363991, 70363318461740), (7516, 487738017916, 31017209453310),
  (7059, 194098053303, 7541473801370), (8552, 614581140636, 1763798240290)]

/-- `vsop87d_dict.py` 28653-28752. -/
def uranusR0_6 : List (ℕ × ℕ × ℕ) := [
  (6859, 511679089849, 10749800823370), (7148, 173466140387, 119078588005910),
  (9112, 88368663290, 36286229257260), (9300, 144257902224, 76343692965770),
  (9073, 431998777457, 1615350969460), (9126, 374417347717, 466586644600),
  (7869, 465596954763, 23242155054920), (9168, 325096522859, 15550108796780),
  (7624, 88232424215, 45936278465220), (8200, 151866334747, 1006372234907640),
  (8579, 237726234500, 7567537044460), (7595, 263499505823, 65716276170140),
  (8131, 615861249482, 74527768239300), (6398, 61376490225, 7324894174920),
  (7710, 402552779925, 473530241520), (6380, 320688120531, 7334530996880),
  (7505, 67397826037, 22879821382680), (7129, 133525552417, 23687496867410),
  (7444, 305581518163, 17165459766240), (6361, 605108999867, 9597922721780),
  (7086, 488497877319, 653166165626500), (6527, 401380149030, 11887377689770),
  (7984, 170695215254, 10452906281710), (6239, 108160874504, 14393412284210),
  (7200, 119830150903, 161738407093510), (6390, 483649966441, 107271525231350),
  (7857, 306062400692, 34199473232220), (6158, 4340975323, 62736711334180),
  (8664, 560425824325, 281092146160520), (6147, 416482048084, 130099220127850),
  (8148, 311700641910, 1021328554621100), (8603, 380404544682, 2555821217647960),
  (7586, 286885781812, 40610313764110), (7925, 311650504000, 8168269724700),
  (7063, 535078594952, 7303649342810), (6265, 327996815317, 11653797092750),
  (7345, 45699353973, 19280404220310), (6878, 129690429239, 2263391724900),
  (6102, 206174377751, 7397844941520), (7867, 145455437627, 13192521473170),
  (6837, 7237438837, 9028071695610), (7740, 287078307084, 7944746501330),
  (6744, 1897075429, 57222923474750), (6034, 96635268225, 47631944349890),
  (8276, 240596529645, 67480074410430), (6002, 324986200464, 7678733613740),
  (6863, 124850658686, 40016524680790), (6375, 137050567525, 7515410558280),
  (7445, 547946546419, 5066320861000), (5889, 583364715391, 16412035953630),
  (7190, 321396813566, 7115826184490), (6305, 165443603478, 7004629615210),
  (6628, 199043744200, 159634729290), (6081, 126599890530, 6144827644300),
  (7795, 70956881527, 4407092647100), (7784, 547416712189, 41677633088950),
  (5727, 239389303582, 2027700789528740), (6363, 196472326808, 28873508531110),
  (5724, 430532783970, 8663044798330), (7348, 528008775997, 28563301345050),
  (5693, 113590287643, 44534813897170), (5799, 243420435064, 18079513409270),
  (6927, 419297070447, 52523754696970), (6143, 223902465258, 131039337013970),
  (6680, 536285833774, 45246168597250), (5709, 365303501856, 44237919355510),
  (6238, 460538870228, 13755428902420), (5932, 322993254909, 7345718455340),
  (7734, 572805659987, 15429849954980), (5782, 217577477697, 228762186040),
  (6016, 346585546590, 34639996633730), (7517, 563641104589, 54972844394250),
  (6685, 484971092735, 14881243760920), (5797, 51568102762, 14930256470370),
  (7739, 323104533276, 58949471013490), (7590, 249504939023, 32176031151820),
  (6706, 523367324742, 76981676347560), (7210, 256243122515, 37567434983510),
  (5491, 184139760824, 37539246554480), (6592, 339703193659, 38968899551560),
  (6414, 356513278405, 48884961647110), (6376, 24081237769, 88150755740330),
  (5785, 349508162978, 10252332524700), (6079, 84517404881, 8959939339990),
  (5799, 219388408812, 890683624980), (5305, 197785611200, 15031395666000),
  (5422, 121990761182, 33217287233570), (7235, 278896876234, 74809786996330),
  (6360, 36304095923, 7440909155180), (5285, 441108441808, 1200890811040),
  (6602, 301699401726, 44275170057060), (6509, 49819168917, 114749685088080),
  (5585, 604761249158, 17245774681450), (6673, 77536194908, 606977675455340),
  (7125, 34356180793, 51159540830470), (5288, 427462942653, 1115757484850),
  (6767, 200969662613, 10538039607900), (5611, 240776057824, 128601434775150),
  (6456, 448699081452, 3123193695810), (5898, 526174074234, 75780785536520)]

/-- `vsop87d_dict.py` 28753-28852. -/
def uranusR0_7 : List (ℕ × ℕ × ℕ) := [
  (5153, 241386832919, 74299006053260), (5087, 603592089039, 98066817835880),
  (6198, 83056505252, 150717774971570), (5425, 193107713343, 4084134862350),
  (6091, 518564204379, 48710451133190), (5715, 196802719384, 39435486196160),
  (5509, 131275092080, 88379517926370), (5320, 422718652038, 6538042970610),
  (5357, 180483136985, 13948070471720), (5204, 339869589191, 140015282223400),
  (6537, 231923989568, 32824071907260), (5041, 294673346440, 36137781986430),
  (4969, 627367198215, 16005869440), (5334, 278985718428, 21744369702220),
  (5654, 51056760715, 28511174858870), (6432, 221948959433, 999998645077300),
  (5768, 510735836078, 21626804085460), (4977, 262435916254, 19417664032680),
  (6932, 171722863424, 37890392768260), (5187, 304429850681, 108376095257740),
  (5791, 394061476250, 55013783421970), (5816, 224843661305, 23093707784090),
  (5319, 6998825350, 33683873878170), (5427, 30577275388, 4058071619260),
  (6469, 302579309025, 29823262239190), (4974, 121594265105, 45506942522170),
  (4960, 472806210230, 45474930783290), (5619, 227500303004, 22752618943960),
  (6328, 97544932086, 24994765836750), (5319, 459867974067, 45479749194270),
  (4791, 440360629153, 85319638175200), (6519, 303043401282, 16772244439930),
  (5450, 600971547441, 2512978191360), (5094, 396693309189, 106649547719000),
  (5779, 65954416303, 27258157561650), (6491, 468529651540, 31219908396260),
  (5234, 434712255335, 23353351624200), (5396, 562885554221, 41852143602870),
  (5048, 246802064424, 98756927703850), (6152, 79853332272, 227454683263650),
  (6506, 172915575120, 12518417474640), (4993, 375975860404, 5725549074900),
  (6295, 84778953014, 1008249241740), (6251, 478782138567, 27018207917150),
  (5785, 431237764709, 37449869366750), (5406, 549902863401, 63278373931320),
  (6224, 12733845417, 14904193227280), (4921, 143037646364, 7313706716460),
  (5076, 134845106372, 45502124111190), (5730, 330386575867, 8827497938600),
  (4618, 64720625124, 11939504175950), (6213, 258827934841, 54450875992720),
  (4825, 608615765986, 30412232911530), (4825, 600483903794, 22679247625670),
  (5528, 569752791882, 54844091319030), (5108, 274489127167, 42362924545940),
  (5426, 244835106987, 53197858695500), (4573, 161098293427, 35744566660120),
  (4487, 609067660554, 20470107572890), (5866, 620513223441, 77278570889220),
  (5334, 249860553733, 113119458333990), (5656, 475744184558, 49181856188770),
  (4441, 23590452375, 3568535508300), (4370, 381136490830, 132930337692980),
  (4406, 342865095493, 14489733068860), (5251, 472114047741, 53532003938710),
  (5174, 137807596858, 52012973753900), (4331, 264717426456, 151726024213310),
  (4802, 260569463520, 17730492381430), (4368, 336272561974, 150324559645260),
  (4335, 273379207096, 28956516671360), (5198, 97116582962, 12843500445330),
  (4437, 56678131875, 25345912050530), (5386, 584886051674, 26869760646320),
  (5376, 130096148962, 43681380973740), (5797, 433049740199, 20884567731310),
  (4353, 166111524192, 126163532536330), (4812, 495769337401, 54547196777370),
  (5897, 204201205180, 859801970910), (5032, 280550759770, 36041461201780),
  (4921, 255658380096, 26036021918500), (4413, 323825819993, 97355463135800),
  (4506, 17509624151, 38038840039090), (4947, 550324549675, 36590067395840),
  (4174, 299974290843, 13606981631590), (4553, 277416673233, 14796684984170),
  (5344, 181213470593, 52109294538550), (5155, 78324341489, 167007426897460),
  (5133, 137435234967, 27161836777000), (5708, 252872222038, 50137978944330),
  (4933, 136454104948, 23890195810360), (4973, 192960964594, 53591074021810),
  (4935, 504375067678, 69780716836880), (4129, 150064332826, 7186083726050),
  (5207, 401877367340, 9241958097020), (4587, 478553156868, 9593104310800),
  (5050, 541251268131, 75877106321170), (5012, 450266403888, 63596513305090),
  (4248, 65406962267, 92086443331850), (5150, 113490701556, 31097524368520)]

/-- `vsop87d_dict.py` 28853-28952. -/
def uranusR0_8 : List (ℕ × ℕ × ℕ) := [
  (4146, 554040372231, 104833622992530), (4256, 420942901957, 2527279426550),
  (4569, 519758291396, 1029494073850), (4259, 553202386861, 18498791978670),
  (4315, 280569687202, 21395348674380), (4604, 251643176466, 96250893109410),
  (5105, 126007002216, 97110695080320), (4500, 615796742231, 105226838318840),
  (4095, 63467124507, 132143907040360), (3968, 7377679014, 7770235987410),
  (4617, 277367751889, 40695447090300), (4899, 465767840428, 30560680182360),
  (3900, 166467970991, 94524345570670), (4133, 376396043787, 26302034806090),
  (3899, 428677450975, 22423292111730), (5030, 624112139981, 116247470440780),
  (5024, 39738855487, 96813800538660), (4894, 250422546622, 35574874557180),
  (4283, 315267059582, 84608283475120), (3941, 4342429962, 123561177157240),
  (4077, 568854469970, 69555642977010), (3842, 37429373422, 77448262992160),
  (4674, 8112657673, 136621257229020), (4671, 438923533828, 11736805233000),
  (5313, 438472090135, 68961853893690), (3787, 141443617212, 4891810347080),
  (4236, 160316940746, 36759759498780), (4569, 288138923862, 55110104206620),
  (4636, 593442268083, 14819059901090), (5128, 17600225009, 43371173787680),
  (4264, 208657038625, 32538364824060), (3885, 585359840623, 45071658083330),
  (4753, 258442943928, 35840887444770), (4226, 624596640453, 44897147569410),
  (3776, 178756451192, 7170077856610), (4912, 445665056284, 5188704888740),
  (3854, 272138633161, 15185081899500), (4561, 7201979569, 234932843120380),
  (4291, 539929339966, 52375307426140), (4143, 17158866270, 73587651353180),
  (3806, 144358694049, 13862937145530), (3654, 241520715554, 34884764689210),
  (3728, 169745141654, 98471220620650), (4176, 401139155515, 19577298761970),
  (4986, 103562905920, 22445667028650), (4031, 92145122185, 7600543884470),
  (4098, 351214223942, 7249397670690), (3812, 441246815759, 151132235129990),
  (4098, 239702785276, 23916259053450), (4894, 526621064696, 60150361824530),
  (4459, 576440378473, 83652160719560), (4373, 408948598951, 7543598987310),
  (4363, 601127167247, 42118156490460), (4414, 35830661600, 16831314523030),
  (3700, 204103813925, 6321463344160), (4648, 207482117651, 110665550225730),
  (4304, 303122452327, 110962444767390), (3618, 484400847177, 89335640681930),
  (4023, 59685650686, 9124392480260), (4937, 549417275871, 97673602509570),
  (4373, 376648561161, 7412720726150), (4310, 372983787822, 67331627139600),
  (4680, 389631254150, 16357784281510), (4172, 75349427039, 150006420271490),
  (4492, 187283145714, 14117762574660), (4174, 582910805335, 34644815044710),
  (3775, 83052387256, 82792358748650), (3481, 270828672792, 81857480825200),
  (4853, 95917381603, 5817051448570), (4021, 311274455034, 37741945497430),
  (4409, 16607520728, 63033605875840), (3597, 102560564654, 51546387109300),
  (3444, 138488805947, 11731986822020), (4021, 568447974866, 349021027840),
  (4244, 375845344717, 73342883297700), (3933, 455157642432, 24012579838100),
  (4421, 151263319894, 161027052393430), (3390, 400215380112, 7499404688840),
  (4556, 341531360529, 114038330388000), (4171, 76417016678, 62343496007870),
  (3441, 256450835637, 1481779483260), (3587, 410186965494, 34321857259960),
  (3997, 574857613262, 621222640468720), (4215, 84469743228, 17665053250850),
  (4098, 141920746453, 55969906177530), (4553, 109016692751, 56188610989920),
  (3493, 11837510368, 103187390369000), (3596, 533968666729, 39494556279260),
  (3501, 553309359866, 59491133610630), (3564, 157868308864, 35499798604640),
  (4279, 235436288262, 56266800719190), (3398, 162086348540, 94131130244360),
  (3803, 178948693511, 25117149864490), (3299, 513631478768, 47700076705510),
  (3422, 355674695079, 25642806592190), (3802, 409287840097, 26895823889410),
  (3818, 464162443046, 7192452773530), (4623, 272836206211, 624494281435360),
  (3466, 191387688001, 5873996345730), (3435, 296178782926, 99564603188580)]

/-- `vsop87d_dict.py` 28953-29052. -/
def uranusR0_9 : List (ℕ × ℕ × ℕ) := [
  (3626, 535614681493, 5751612317990), (4512, 118350543284, 17076082578510),
  (4378, 27346037700, 46972716135990), (3323, 451516827363, 45486118241750),
  (3320, 142938752044, 45495755063710), (4578, 474980514730, 73194436026870),
  (3249, 67719975914, 7404788538440), (4145, 558064267022, 5779800747020),
  (3512, 609122971288, 7058881287330), (3814, 249565462974, 620436209816100),
  (3828, 439751907192, 58631331639720), (3639, 485097208169, 13840562228610),
  (3518, 52105043625, 26280789973980), (3671, 199667387765, 51153171782990),
  (3215, 64628330219, 88772733252680), (3718, 327473813045, 45464873409640),
  (3638, 263250736806, 45516999895820), (3772, 88810300052, 1014243610090680),
  (3190, 487960158471, 45566012605270), (3669, 411456655271, 40992341631960),
  (3166, 124948126394, 8264590509350), (3530, 402075420346, 38820452280730),
  (3163, 165294183878, 76588461021250), (3568, 595965909592, 46084725736050),
  (3450, 8821515281, 4917873590170), (3270, 181146731641, 3420088237470),
  (3188, 174587038709, 1891000679010), (3305, 577382040863, 1052443540210),
  (3345, 415802505352, 151577576942480), (3160, 106549289762, 45415860700190),
  (3525, 256091667232, 7811414622758799), (4124, 106751791085, 38846515523820),
  (4016, 248751669586, 53117543780290), (3147, 505814757549, 152140484371730),
  (4180, 116833674781, 51456435372130), (3212, 318682610058, 151280682400820),
  (3486, 22630227172, 3653668834490), (4211, 321876950029, 76174000862830),
  (3485, 326177495276, 3676043751410), (3506, 626633354904, 54527502581760),
  (3733, 255776517455, 27948267429620), (4227, 141381723926, 4175637236020),
  (3187, 162296832026, 13846931276090), (3934, 286731965547, 83206818907070),
  (3684, 394174060300, 17931066138440), (3115, 567364420834, 7355775828990),
  (3663, 180556740809, 3154075349880), (3171, 485529878165, 13856568098050),
  (3777, 594890597104, 87317017012510), (4357, 415105623366, 1017515251057320),
  (3951, 160185888278, 57616138801060), (3525, 480316435970, 42977958461370),
  (3330, 562171319933, 111600428149180), (3943, 462641543020, 89877303279070),
  (3382, 145717307307, 598394945572220), (3215, 373878297941, 33577495719870),
  (3423, 507987216951, 14334342201110), (4161, 539091883238, 136324362687360),
  (3457, 394796907904, 44482687410990), (3593, 391831549069, 1013457179438060),
  (3666, 422620338990, 3617548217750), (3580, 343130119859, 91278767847120),
  (3700, 67445695843, 7393026530540), (3679, 110949079061, 68695841006100),
  (3547, 563096398237, 44089472084680), (3622, 110742531477, 225016781024830),
  (3562, 380604468765, 152533699698040), (3330, 176480149289, 7897438426130),
  (3738, 176754910180, 38458118608490), (3986, 106842874470, 74379320968470),
  (3032, 577852412826, 61217681149370), (3008, 64086342534, 21085141488320),
  (3334, 481681647959, 59735901666110), (3141, 311768616608, 660792772754060),
  (3022, 208709314702, 3453095077480), (3226, 319780030434, 37768008740520),
  (4065, 353637930424, 40221916848780), (4138, 28927701421, 51716079212240),
  (3697, 89932694516, 7563293182920), (3918, 573859894835, 9442531854030),
  (3374, 40974405580, 67776968952090), (3194, 456998602897, 138517496870700),
  (3180, 103370427552, 88543971066640), (3235, 509681747179, 46499185894470),
  (3798, 576464888795, 58637700687200), (3173, 568964342749, 419278569400),
  (3181, 287968862974, 991415915194180), (3355, 545857968674, 7308467753790),
  (2899, 512928266291, 44831708438830), (3706, 247342147635, 6425716316520),
  (3796, 429502458131, 16454105066160), (3534, 442464754991, 4647042291600),
  (3488, 562713714766, 318956475685690), (2940, 433606107945, 7826370942472259),
  (3309, 310770680369, 51960847267720), (4030, 441794838679, 77258876693610),
  (2867, 517129632099, 34618751801620), (3842, 187994191354, 29971709510020),
  (3846, 538315286213, 98014691349700), (3724, 494511644698, 98448845703730)]

/-- `vsop87d_dict.py` 29053-29152. -/
def uranusR0_10 : List (ℕ × ℕ × ℕ) := [
  (2814, 217260061398, 19131956949480), (3392, 308552116090, 24549424024260),
  (2923, 37358823115, 648040755440), (3025, 119297242418, 10483787935780),
  (3470, 189084704021, 4461344319220), (2931, 78809830626, 54005534180230),
  (3707, 414868763219, 613648159827340), (3931, 552289695589, 617164568849460),
  (3056, 297000936733, 25060204967330), (3117, 76332399369, 22945260513260),
  (3091, 491941279780, 22116340196420), (3378, 382658652472, 2593685547173129),
  (3041, 214503983522, 660495878212400), (2865, 53734608663, 27385360000370),
  (2845, 34922064899, 8593917341580), (3657, 602755271763, 34088276662940),
  (2818, 444508352472, 36934270012700), (2861, 219284349075, 29519424100610),
  (2865, 321935127992, 382027867850), (2797, 597725967979, 201402655475710),
  (3280, 74832416123, 42271422172270), (3509, 192501559437, 34347920503050),
  (2962, 229867992492, 66115860543930), (3485, 453205302380, 67628521681260),
  (2836, 120779683660, 111918567522950), (3603, 272183511139, 50862646288810),
  (3620, 557691156197, 1006669129449300), (2731, 96663411770, 58238116313410),
  (3306, 620620840278, 1156696512570), (3279, 613563821647, 27607178589490),
  (2747, 457476263020, 22663241756230), (2825, 124120423378, 98905374974680),
  (2707, 46257342768, 145847209456600), (2755, 543548338507, 24697871295090),
  (3338, 398641322371, 48858898404020), (2960, 531788128818, 146707011427510),
  (3062, 193542241882, 98778172535960), (3504, 410521239427, 628010690457480),
  (3584, 312196206517, 10872184851110), (2975, 13746189123, 998745627780080),
  (2634, 561201014857, 41237109687440), (3702, 66231252049, 1010185538471420),
  (3261, 439228048501, 7537229939830), (2939, 326319979850, 13055261660800),
  (2742, 624317126103, 44720511869550), (3008, 424451493185, 17017012495410),
  (3001, 245489658954, 23082520325630), (2722, 498348297926, 75403576079650),
  (2928, 573784691627, 1466903698630), (2699, 298043546816, 2772047482030),
  (3678, 346436124301, 2646803090953420), (3500, 441810854452, 32261164478010),
  (2943, 358544468129, 1248988562870720), (2894, 226999120840, 161589959822680),
  (2679, 132002304425, 23619364511790), (2711, 125250599577, 5225058788171570),
  (2573, 441371056719, 26205714021440), (3483, 197113718781, 65593892142400),
  (2600, 380107226970, 7063699698310), (3280, 175059058234, 68398946464440),
  (3260, 346047977615, 7419089773630), (3097, 547452034532, 30237722397610),
  (2565, 347443238116, 204249778910280), (3158, 458160924364, 1249285457412380),
  (3373, 552806001629, 1021031660079440), (2619, 443681016753, 94917560896980),
  (3290, 135055242247, 51567631941410), (3180, 449938964982, 69483822295220),
  (2558, 507921716363, 19779997704920), (2902, 261388996483, 11536231475990),
  (2586, 409771865336, 144891086701040), (3160, 482168102018, 71467888488130),
  (3016, 316691101108, 38575684225250), (3001, 324181300229, 161886854364340),
  (3319, 598200177347, 53383556667880), (3307, 331452419197, 73297125859000),
  (2530, 13809025963, 59194239068970), (2975, 572770980032, 101142703456490),
  (2857, 411031053901, 226743328563570), (3091, 487979664891, 58264179556500),
  (3422, 618592254593, 28148841186630), (2501, 50645055144, 2922619938800),
  (3502, 17203520151, 37152974825090), (2607, 351828908958, 11239336934330),
  (2547, 445612695304, 90122071334550), (2778, 497805873371, 13257960603750),
  (2476, 155163657371, 123412729886410), (2929, 234725672182, 27315102458810),
  (2724, 573177362443, 68865533109040), (2667, 613733078138, 16141204655060),
  (2877, 547506403197, 143654075273260), (2779, 154196175338, 68005731138130),
  (2427, 464913431310, 39265794093220), (3223, 257976952494, 26758564077040),
  (2750, 129662662582, 10898248094200), (3220, 106290187940, 38872578766910),
  (3236, 347802643973, 28362727588040), (3027, 538233284458, 4409217833040),
  (2830, 570274947128, 32743756992050), (2768, 542256168790, 48225733433210)]

/-- `vsop87d_dict.py` 29153-29176. -/
def uranusR0_11 : List (ℕ × ℕ × ℕ) := [
  (3230, 565661970187, 13437289528650), (2685, 503687735302, 76322448133660),
  (2441, 519830386978, 38023964254460), (2608, 311386505876, 57844900987100),
  (2465, 149242672830, 14169889060840), (2332, 319371804203, 68302625679790),
  (2307, 407685834192, 7892620015150), (2280, 252476606956, 15667674413540),
  (2260, 623958645351, 40057463708510), (2301, 247762267951, 10791869935900),
  (3089, 569639540598, 53739521292640), (3074, 116740737548, 5862808887270),
  (2846, 2430566936, 56337058260750), (2423, 424559706691, 2774172667970),
  (2670, 348404619442, 12301837848190), (2228, 333159258912, 125770317210020),
  (2445, 229979337782, 28021638747910), (2260, 385026258012, 75314198891920),
  (2195, 494038065567, 122227844944810), (2579, 176841912074, 71074673161820),
  (2402, 447942458428, 56904784100980), (2181, 539048760967, 31867949151700),
  (2317, 627946729049, 49304240216510), (2420, 366436222896, 362333672240)]

/-- `vsop87d_dict.py` 28052-29177. -/
def uranusR0 : List (ℕ × ℕ × ℕ) := List.flatten [
  uranusR0_0, uranusR0_1, uranusR0_2, uranusR0_3, uranusR0_4, uranusR0_5, uranusR0_6, uranusR0_7, uranusR0_8, uranusR0_9, uranusR0_10, uranusR0_11]

/-- `vsop87d_dict.py` 29179-29278. -/
def uranusR1_0 : List (ℕ × ℕ × ℕ) := [
  (1479896370, 367205705317, 7478159856730), (71212085, 622601006675, 6373589830340),
  (68626972, 613411265052, 14956319713460), (20857262, 524625494219, 1104570026390),
  (21468152, 260176704270, 7626607127560), (24059649, 314159265359, 0),
  (11405346, 1848461561, 7084944530420), (7496775, 42360033283, 7329712585900),
  (4243800, 141692350371, 8582729883120), (3505936, 258354048851, 13851749687070),
  (3228835, 525499602896, 393215326310), (3926694, 315513991323, 7181265315070),
  (3060010, 15321893225, 148447270830), (3578446, 231160668309, 22434479570190),
  (2564251, 98076846352, 14807872442630), (2429445, 399440122468, 5269019803950),
  (1644719, 265349313124, 12747179660680), (1583766, 143045619196, 7871375183040),
  (1413112, 457461892062, 20225339517410), (1489525, 267559167316, 5662235130260),
  (1403237, 136985349744, 7775054398390), (1228220, 104703640149, 6225142559510),
  (1508028, 505996325425, 15104766984290), (992085, 217168865909, 6522037101170),
  (1032731, 26459059027, 13140394986990), (861867, 505530802218, 35181659230870),
  (744445, 307640148939, 3516409022120), (604362, 90717667985, 98460033162190),
  (646851, 447290422910, 7032818044240), (574710, 323070708457, 44779581952650),
  (687470, 249912565674, 7796299230500), (623602, 86253073820, 956122755560),
  (527794, 515136007084, 296894541660), (561839, 271778158980, 46202291352810),
  (530364, 591655309045, 21329909543800), (460080, 422302465979, 1253017297220),
  (494280, 46291078127, 14563104387150), (487336, 70614146398, 38012776796000),
  (380908, 385089591694, 318139373770), (444352, 215558291251, 6766805156650),
  (338800, 253820897704, 1815924726470), (372947, 505141251694, 52969096509460),
  (348345, 174874852104, 7160020482960), (405881, 122961727600, 2209140052780),
  (268913, 624069521597, 34077089204480), (255585, 295695013627, 8434282612290),
  (259465, 392053708924, 5980374504030), (224731, 390961468562, 16060889739850),
  (221710, 364727173951, 13703302416240), (254591, 350411592815, 3813303563780),
  (238290, 204879982674, 26992144674060), (272355, 338363105223, 22286032299360),
  (200648, 124861003313, 6936497259590), (234153, 27825220612, 10846121608020),
  (188515, 441307507326, 26598929347750), (211691, 68027381802, 11143016149680),
  (205946, 153379817229, 28414854074220), (196179, 477152996605, 29912639426920),
  (153102, 521761881347, 20936694217490), (162563, 434054353610, 3367961751290),
  (150563, 198966326297, 5417467074780), (137012, 40323866041, 19513984817330),
  (117171, 39649791652, 8731177153950), (127913, 240333045173, 3961750834610),
  (104218, 292152185788, 13458534360760), (103862, 181622936156, 7233391801250),
  (105741, 17067407327, 7923501669220), (106419, 69799543514, 244768055480),
  (95326, 402880266738, 8285835341460), (104772, 443616414428, 30534616939270),
  (93825, 501823592717, 5120572533120), (103739, 257553519741, 19120769491020),
  (106679, 122996874093, 22582926841020), (93452, 309274255916, 7722927912210),
  (97398, 381380841075, 15253214255120), (84583, 572473747348, 6884370773410),
  (77395, 8281157747, 4557665103870), (76207, 420384370842, 7381839072080),
  (86249, 53131085736, 14510977900970), (75795, 378559826812, 7574480641380),
  (77592, 163628139623, 47928838891550), (84612, 61662456010, 11642609634290),
  (100209, 494084867643, 12035824960600), (72142, 430505812564, 56511568774670),
  (70733, 238450718488, 6076695288680), (71585, 393906647867, 15349535039770),
  (84566, 556037336584, 34470304530790), (63556, 193742986679, 4164449777560),
  (71619, 371213491656, 40843894361130), (61594, 390006698249, 445341812490),
  (64973, 155845503407, 10697674337190), (59913, 60110866128, 7489347315190),
  (62000, 439369268007, 45342489381900), (63361, 419159979468, 18472728735580),
  (62301, 323773103318, 42266603761290), (54427, 372545550857, 711354700080),
  (52474, 608562717749, 40450679034820), (59073, 155568469603, 45639383923560),
  (52597, 350492233970, 12598732389850), (52835, 520100035142, 35893013930950)]

/-- `vsop87d_dict.py` 29279-29378. -/
def uranusR1_1 : List (ℕ × ℕ × ℕ) := [
  (58123, 533480562448, 22041264243880), (52909, 444819701196, 42659819087600),
  (50934, 52638534200, 49033408917940), (54968, 160146090981, 1497785352700),
  (49491, 425534603275, 541662597140), (51303, 36772379136, 20618554843720),
  (51821, 175832999538, 807675484730), (56964, 84114552694, 14659425171800),
  (49109, 94061875871, 9916062095550), (46361, 535115472594, 15274459087230),
  (48023, 197249712347, 28808069400530), (43772, 303713403879, 2060692781950),
  (49493, 584619560979, 11291463420510), (41987, 4620500196, 12895626931510),
  (48628, 362817742782, 8100137369080), (41472, 233730376429, 27703499374140),
  (39983, 509525356576, 3542472265210), (41948, 251050760642, 2437902238820),
  (38325, 361946898382, 17394221952280), (38385, 206003220130, 33365734504400),
  (42597, 126088737300, 151429129671650), (38855, 74239364306, 34788443904560),
  (38535, 495064283065, 9294084583200), (33234, 138358507432, 7466972398270),
  (33788, 368407945156, 6691729204110), (38953, 549236040328, 20076892246580),
  (31850, 53990592534, 20373786788240), (33320, 626012644668, 105938193018920),
  (30806, 253797566903, 97748678462110), (29198, 543116906000, 5810682401090),
  (30059, 19481555617, 38724131496080), (28997, 310546504714, 99171387862270),
  (35640, 372863820177, 9687299909510), (27607, 37142052647, 8019822453870),
  (32492, 438403518987, 22137585028530), (27029, 135552416596, 96320784650),
  (31276, 79566430555, 37301422095920), (31122, 205381353845, 23056457082540),
  (25883, 346808071409, 14414657116320), (30201, 71392007232, 10994568878850),
  (24688, 304162764358, 1401464568050), (27882, 476559523368, 41555249061210),
  (25110, 512405829717, 8137388070630), (25582, 256904073164, 52257741809380),
  (24351, 220289059750, 62885158605010), (25479, 179521877300, 14362530630140),
  (24182, 567160913092, 44386366626340), (25679, 543185950751, 54695644048200),
  (24177, 559982039849, 3219514480460), (24428, 330271734903, 61780588578620),
  (23535, 65842590604, 4620979048510), (22371, 482094751058, 13554855145410),
  (27179, 202720001624, 53680451209540), (22213, 461664624220, 39117346822390),
  (21973, 459216260632, 24161027108930), (20813, 24392941148, 46595506679120),
  (27264, 215210992383, 14000196957900), (21356, 527168432406, 15912442469020),
  (23632, 494972840898, 56118353448360), (24921, 54550733267, 18175834193920),
  (23027, 380632203913, 5513787859430), (19799, 130259938601, 51864526483070),
  (19252, 131448491434, 54302428721890), (19704, 490869636976, 90981873305460),
  (20801, 91178207093, 7647851959670), (19876, 66494008343, 6670484372000),
  (18957, 467998817036, 9889998852460), (25913, 452903186569, 45490936652730),
  (21888, 123372931740, 4110198105440), (18703, 609640927844, 10309277421860),
  (18207, 97283864525, 5565914345610), (21247, 419373732137, 32972519178090),
  (19408, 431468230800, 621977512350), (18497, 578624335074, 14244965013380),
  (22588, 584591645052, 29764192156090), (16770, 609084656811, 21181462272970),
  (16432, 250008469020, 6128821774860), (20361, 316137245375, 18621176006410),
  (15955, 298317221345, 8189514556810), (18953, 601226591746, 15578297225810),
  (17686, 482613965176, 27310284047830), (15141, 365588411561, 47217484191470),
  (18440, 347582817224, 3664856292950), (16303, 13086415177, 55406998748280),
  (18633, 23932740251, 2357587323610), (14352, 269389896537, 7011573212130),
  (15190, 243789398875, 48640193591630), (14002, 512389205028, 2920494752860),
  (15758, 424947053051, 14638180339690), (14125, 155719788547, 11020632121940),
  (17477, 194549668506, 83503713448730), (13691, 163831110442, 9204707395470),
  (13801, 13721153975, 23539049596580), (13573, 285427895075, 4950880430180),
  (12563, 320921738646, 10038446123290), (12390, 288595800082, 6055450456570),
  (14986, 32593957273, 25950888592310), (12922, 277565630582, 10549227066360),
  (12323, 336427641421, 44068227252570), (15233, 25589845180, 25887574647670)]

/-- `vsop87d_dict.py` 29379-29478. -/
def uranusR1_2 : List (ℕ × ℕ × ℕ) := [
  (12106, 10857558014, 15763995198190), (12883, 30655541587, 12429040286910),
  (10900, 342905554547, 3313710079170), (11206, 498840478043, 60447256366190),
  (10812, 386253020441, 76736908292080), (11561, 260450144944, 16682867252200),
  (10200, 527810824796, 26450482076920), (10926, 64149188846, 55800214074590),
  (12315, 433998516461, 1667477455640), (9946, 67298666287, 3149256938900),
  (12641, 483194943583, 11439910691340), (10479, 20404797652, 27555052103310),
  (11291, 96120625051, 37390799283650), (12144, 191712815063, 37864329525170),
  (12229, 70465454670, 21840690486870), (10753, 574480767273, 8811492069160),
  (9481, 65566927406, 35330106501700), (11006, 262953946665, 15401661525950),
  (9113, 299457723478, 68154178408960), (10429, 233056994007, 13288842257820),
  (9169, 479284571455, 21648048917570), (9341, 75923548315, 12991947716160),
  (8917, 78008399009, 6735923502580), (8757, 612717748848, 15052640498110),
  (9637, 288664912193, 6788049988760), (10465, 36943456465, 69970103135430),
  (9301, 149620591593, 1964371997300), (9367, 526481516822, 8071948940050),
  (10076, 356540311122, 27851946644970), (9455, 306088968751, 14967507171920),
  (9168, 302528121597, 16209337010680), (8395, 218455001650, 34225536475310),
  (9233, 532613442062, 15201087768940), (9786, 243713607191, 7530286342910),
  (10029, 81917102953, 33928641933650), (9429, 193671715384, 14711551657980),
  (7861, 471717822837, 10601353552540), (8813, 1616162513, 4258645376270),
  (7808, 61104170424, 13533610313300), (8193, 259644466423, 46913646052890),
  (10084, 258619215129, 5040257617910), (8574, 569115937472, 76025553592000),
  (7525, 264764195045, 593789083320), (8699, 54050826161, 6618357885820),
  (8027, 194079002321, 18027386923090), (7547, 594593031762, 9741551581630),
  (7597, 580197738402, 45097721326420), (8666, 369933873164, 30061086697750),
  (7685, 147377256329, 3224332891440), (8195, 230769657654, 25494359321360),
  (8473, 127680705911, 3935687591520), (7026, 68091865104, 87439401040250),
  (8898, 16273040357, 4312897048390), (7205, 498177531040, 11791056905120),
  (7389, 409295183164, 9230770638560), (7314, 504313738379, 75632338265690),
  (8454, 122026161161, 7944746501330), (6925, 604100189247, 35033211960040),
  (8793, 133398658801, 4875804477640), (7270, 332609286227, 6818931642830),
  (6825, 477832275072, 14266209845490), (6816, 390452052962, 48077286162380),
  (7062, 127536949417, 6856182344380), (7947, 429940380231, 62491943278700),
  (6741, 543264472273, 61069233878540), (6529, 543599941795, 8879624424780),
  (7635, 481180007736, 31245971639350), (7235, 318370421558, 26843697403230),
  (8133, 198936178361, 69258748435350), (6477, 105238958778, 68547393735270),
  (6630, 137656948077, 29126208774300), (6878, 259188446778, 28266406803390),
  (7123, 579744758808, 46824268865160), (6320, 258497126634, 45809076026500),
  (6222, 568982546821, 11387784205160), (7635, 49482302003, 29615744885260),
  (8521, 576688485, 22731374111850), (6520, 399093726386, 4253826965290),
  (6435, 103721543102, 36590067395840), (6107, 35071886662, 14859998928810),
  (8199, 113448902886, 6915252427480), (6102, 94101111641, 1333332212430),
  (5989, 498445156102, 18409414790940), (6355, 16346166674, 22827694896500),
  (7955, 403567630186, 18324281464750), (5884, 440842406038, 1912245511120),
  (5938, 540863870407, 1752610781830), (5869, 539494525133, 9538852638680),
  (5775, 281250784939, 12184272231430), (6070, 423605170027, 11950691634410),
  (6349, 352304701692, 28563301345050), (5780, 17831551537, 45884151979040),
  (5674, 416711163603, 8975945209430), (5534, 424741728108, 7553235809270),
  (5648, 281224199321, 15497982310600), (6939, 331979953743, 30683064210100),
  (5682, 479764449768, 24872381809010), (6087, 404640130992, 27140591944890),
  (6869, 134392408836, 786430652620), (5611, 532955957046, 92086443331850)]

/-- `vsop87d_dict.py` 29479-29578. -/
def uranusR1_3 : List (ℕ × ℕ × ℕ) := [
  (6495, 45735814276, 10627416795630), (5353, 249825965802, 2411838995730),
  (6612, 524626646696, 5831927233200), (5552, 24515487696, 17368158709190),
  (5209, 607866998675, 13406407874580), (5176, 369984512887, 77841478318470),
  (5949, 363204266272, 18972322220190), (6360, 35370738262, 41162033734900),
  (5147, 155440402971, 19365537546500), (6436, 518759014405, 12099138905240),
  (6994, 485978914075, 41948464387520), (5323, 50787742639, 1646232623530),
  (5085, 128917723765, 26747376618580), (5993, 470505267412, 29823262239190),
  (5507, 272405080404, 98608480433020), (6163, 187793216012, 39739324334740),
  (4846, 566714115710, 9082323367730), (4875, 124385851949, 2560286266560),
  (5374, 31175745933, 19269216761850), (5262, 185699096844, 11494162363460),
  (5373, 622242588334, 9145637312370), (5050, 339322756907, 83110498122420),
  (4637, 84958882655, 40302231763990), (6382, 277560901069, 19832124191100),
  (4685, 494029403928, 90270518605380), (5005, 140309022449, 615033915430),
  (5014, 557665259095, 45194042111070), (4580, 247734499363, 3123193695810),
  (5129, 323528704150, 10931254934210), (4459, 622635092697, 20788246946660),
  (5734, 96616252776, 48322054217860), (4425, 274721673213, 82399143422340),
  (4575, 187994871749, 4472531777680), (4748, 34902594832, 45787831194390),
  (4268, 489983575247, 12450285119020), (4709, 528612293112, 44928029223480),
  (5761, 209247769051, 18769623277240), (4284, 66132439268, 21033015002140),
  (4318, 168857333749, 30927832265580), (4332, 141872733238, 2512978191360),
  (4305, 105990546337, 60676018552230), (4519, 584384426255, 90588657979150),
  (3934, 41768897300, 18016199464630), (3973, 322666150606, 63989728631400),
  (4871, 461331971606, 25802441321480), (4604, 477631056831, 46350738623640),
  (3943, 331312639875, 10749800823370), (4217, 73383451512, 49744763618020),
  (4057, 167333716577, 742236354150), (3854, 613547145503, 3420088237470),
  (4617, 589829880253, 30386169668440), (5086, 285235518740, 2831117565130),
  (5337, 236556705745, 47780391620720), (4456, 174674336635, 9597922721780),
  (4138, 380344455465, 46053844081980), (3812, 248508006441, 2527279426550),
  (4732, 87519409311, 25505546779820), (3843, 402615028031, 10400779795530),
  (3776, 289171052095, 2708733537390), (4932, 36238909407, 12353964334370),
  (4371, 374322467592, 37619561469690), (3747, 304126115463, 14214083359310),
  (4232, 431629167726, 44631134681820), (3685, 326448469664, 17076082578510),
  (3575, 431199276037, 57222923474750), (3567, 408542270507, 43371173787680),
  (4496, 210358455875, 83821852822500), (3505, 353902384390, 52012973753900),
  (3524, 375716903766, 47306861379200), (3962, 533706246667, 4328902917830),
  (3597, 365066955203, 97600231191280), (3487, 212239114397, 31639186965660),
  (3475, 444351326599, 38405992122310), (3628, 211511417759, 7318525127440),
  (3702, 386923731076, 98163138620530), (3687, 518698183343, 99319835133100),
  (3599, 207986409347, 4769426319340), (3807, 421821126511, 19662432088160),
  (4707, 456309173897, 4706112374700), (4312, 38740046308, 98853248488500),
  (3867, 208559458308, 45735704708210), (4723, 416947683948, 21989137757700),
  (3527, 20371576470, 39435486196160), (3644, 582023483708, 58631331639720),
  (3328, 293840719007, 53591074021810), (3321, 419289134366, 11413847448250),
  (4128, 306165703109, 37715882254340), (3545, 441886084391, 129387865427770),
  (3295, 297049569593, 1519030184810), (3337, 623473900765, 994705568153210),
  (3253, 522412177835, 42511371816770), (3677, 531389484415, 14169889060840),
  (3242, 468868636498, 97897125732940), (3266, 357072306171, 1726547538740),
  (3435, 52794358986, 14148644228730), (3242, 262760698007, 659228213900),
  (3613, 194737668557, 66109491496450), (3182, 36603315110, 44949274055590),
  (3311, 125616383318, 23390602325750), (3403, 603792583170, 19928444975750)]

/-- `vsop87d_dict.py` 29579-29678. -/
def uranusR1_4 : List (ℕ × ℕ × ℕ) := [
  (4196, 426442082589, 38161224066830), (3961, 453281422377, 91693228005540),
  (3846, 376849990033, 859801970910), (3350, 563661413371, 44482687410990),
  (3780, 535722293289, 32824071907260), (3166, 216351748263, 98311585891360),
  (3538, 189746744103, 28096714700450), (3930, 209444900058, 65398136796370),
  (3282, 191872815218, 234932843120380), (3269, 52855777633, 45045594840240),
  (3582, 160170266832, 158758842257550), (3522, 251782036180, 23767811782620),
  (3024, 354567524563, 9442531854030), (3528, 479818282081, 40695447090300),
  (2996, 259155293620, 613351265285680), (3146, 218094827839, 21692243216040),
  (3610, 615486273902, 17165459766240), (2977, 69478628170, 29430046912880),
  (3377, 121382647091, 16289651925890), (3347, 414981703949, 21478356814630),
  (2953, 218721777019, 59735901666110), (4049, 315153850922, 83355266177900),
  (3725, 584743216544, 605873105428950), (3390, 118412112871, 16772244439930),
  (3142, 226934209337, 51716079212240), (4077, 7273073033, 119003512053370),
  (3020, 264998251178, 2044686912510), (3926, 141612569694, 34618751801620),
  (3110, 111431255827, 104440407666220), (2836, 62522723719, 74920983565610),
  (2831, 478996738581, 82005928096030), (2824, 87232289414, 3071067209630),
  (3114, 179734939525, 41406801790380), (2801, 399301180541, 1006372234907640),
  (3489, 186982946081, 37152974825090), (3725, 168366366742, 68398946464440),
  (3763, 328247771799, 43281796599950), (3493, 98765698465, 998894075050910),
  (3523, 512512607932, 10538039607900), (2839, 422662576295, 99022940591440),
  (3432, 280483162230, 76418768918310), (2733, 42373696972, 35499798604640),
  (3146, 519208910201, 41703696332040), (3041, 575641149588, 40992341631960),
  (3379, 547448876584, 139622066897090), (3102, 41684444780, 52109294538550),
  (2863, 41519700992, 89484087952760), (2707, 360084311477, 62173803904930),
  (3128, 523384180625, 42415051032120), (3107, 244919355737, 466586644600),
  (2683, 388682711832, 13310087089930), (2660, 478670985324, 36286229257260),
  (3200, 188004939357, 33120966448920), (2730, 412217979791, 60054041039880),
  (3414, 493712749827, 114038330388000), (2653, 510283251074, 11802244363580),
  (3222, 476521772319, 29467297614430), (3289, 426401031509, 54450875992720),
  (3100, 547928527930, 70118550406260), (2785, 519343849039, 14489733068860),
  (2607, 472531286187, 12247586176070), (2581, 627329466695, 90833426034630),
  (3285, 195972622670, 37242352012820), (2897, 37378090180, 58238116313410),
  (2615, 225516923974, 7499404688840), (3582, 127992264402, 98756927703850),
  (3115, 510929689813, 45905396811150), (2857, 590256930211, 52523754696970),
  (2589, 183177157032, 65716276170140), (2539, 414968938109, 7473341445750),
  (2797, 282242772664, 203686871481030), (2688, 216500211397, 26280789973980),
  (2744, 154445470732, 2857180808220), (2539, 46036497385, 7482978267710),
  (3322, 350108539407, 8264590509350), (2810, 606709915335, 37449869366750),
  (2504, 352394801700, 118367233305830), (2565, 164023845161, 7340900044360),
  (2531, 350486296784, 29318850343600), (2663, 423321349902, 42118156490460),
  (2793, 200644423849, 7504223099820), (2430, 156119387576, 13606981631590),
  (2553, 125909246207, 67049608382570), (2604, 387350462519, 7403083904190),
  (2510, 335948960782, 46499185894470), (3005, 81031349171, 7388782669000),
  (3110, 614956891318, 11887377689770), (3234, 245751141361, 9835747180340),
  (2774, 626134027482, 102231267613440), (2402, 438353347008, 130327982313890),
  (3296, 384350963765, 51153171782990), (2800, 260339313269, 7452096613640),
  (3005, 76247280223, 7567537044460), (2434, 494784679430, 96962247809490),
  (2632, 63557110200, 22752618943960), (2669, 73340228210, 7308467753790),
  (2465, 130648773380, 7706922042770), (3237, 319110274211, 188730551767570),
  (2395, 276580569447, 76885355562910), (3230, 1981320255, 88150755740330)]

/-- `vsop87d_dict.py` 29679-29692. -/
def uranusR1_5 : List (ℕ × ℕ × ℕ) := [
  (2747, 559085990261, 38872578766910), (3008, 565955463660, 196920066324380),
  (3008, 91409756228, 211876386037840), (2465, 26629856014, 7249397670690),
  (2629, 400618677646, 2602355379090), (2272, 277069357315, 51546387109300),
  (2360, 412736987374, 7462153987290), (2255, 336574443950, 28659622129700),
  (2211, 518239546182, 5928248017850), (2994, 283179016989, 18498791978670),
  (2492, 119872353228, 38309671337660), (2355, 48259604722, 7494165726170),
  (2185, 607997119980, 6362402371880), (2228, 142452148910, 621933995168800)]

/-- `vsop87d_dict.py` 29178-29693. -/
def uranusR1 : List (ℕ × ℕ × ℕ) := List.flatten [
  uranusR1_0, uranusR1_1, uranusR1_2, uranusR1_3, uranusR1_4, uranusR1_5]

/-- `vsop87d_dict.py` 29695-29794. -/
def uranusR2_0 : List (ℕ × ℕ × ℕ) := [
  (22439904, 69953118760, 7478159856730), (4727037, 169901641488, 6373589830340),
  (1681903, 464833551727, 7084944530420), (1433755, 352119917947, 14956319713460),
  (1649559, 309660078980, 1104570026390), (770188, 0, 0),
  (461009, 76676632849, 393215326310), (500429, 617229032223, 7626607127560),
  (390371, 449605283502, 5662235130260), (389945, 552673426377, 8582729883120),
  (292097, 20389012095, 5269019803950), (272898, 384707823651, 13851749687070),
  (286579, 353357683270, 7329712585900), (205449, 324758017121, 7871375183040),
  (219674, 196418942891, 13140394986990), (215788, 84812474187, 7796299230500),
  (128834, 208146849515, 318139373770), (148554, 489840863841, 12747179660680),
  (117452, 493414907433, 44779581952650), (112690, 101361852218, 46202291352810),
  (98875, 615817742611, 22434479570190), (91379, 67973399531, 1815924726470),
  (89217, 23425778826, 20225339517410), (88206, 293094837724, 6225142559510),
  (114066, 478741873960, 14563104387150), (103858, 358561789629, 7160020482960),
  (61819, 329964272893, 35181659230870), (57782, 490737420887, 2209140052780),
  (64369, 339006689398, 148447270830), (71110, 610490061068, 45490936652730),
  (50990, 386691997779, 6522037101170), (63537, 396202309168, 6766805156650),
  (58957, 555530463687, 956122755560), (48700, 374709235789, 26992144674060),
  (43584, 192568752002, 5980374504030), (42170, 261650997054, 15104766984290),
  (42420, 613634453301, 28414854074220), (44340, 589997845114, 7181265315070),
  (37328, 591300114911, 98460033162190), (36201, 540315761474, 7775054398390),
  (41989, 209071623849, 1253017297220), (31411, 459200004835, 14807872442630),
  (31289, 226696307388, 19513984817330), (27150, 353242984046, 20936694217490),
  (28152, 457845964163, 7722927912210), (26097, 65978256272, 12035824960600),
  (24372, 586680440531, 6936497259590), (23037, 103776963677, 8434282612290),
  (22679, 171434243970, 16060889739850), (27650, 491488946525, 27703499374140),
  (20816, 219643268155, 4557665103870), (19961, 232077356180, 244768055480),
  (16584, 477529536873, 21329909543800), (16578, 185615182154, 34077089204480),
  (17196, 436852462522, 5417467074780), (16053, 364619586667, 15274459087230),
  (14806, 543824503068, 40843894361130), (13872, 338531100784, 35893013930950),
  (13328, 525179190495, 13703302416240), (13286, 126285812368, 13458534360760),
  (12890, 303270380745, 9294084583200), (12467, 133213558369, 5120572533120),
  (13450, 153176996919, 42266603761290), (16442, 40190549188, 26598929347750),
  (11996, 510426418352, 19120769491020), (12898, 443242192513, 8731177153950),
  (11449, 202645622099, 711354700080), (11826, 465645290272, 4164449777560),
  (12045, 323910807852, 11642609634290), (11680, 373278249629, 22041264243880),
  (11573, 416500659139, 6055450456570), (10175, 32936886913, 7032818044240),
  (11332, 107613885149, 7233391801250), (9655, 305950236129, 296894541660),
  (9279, 243997351068, 56511568774670), (8986, 518839740735, 22582926841020),
  (10284, 118602582060, 34470304530790), (8844, 600894470528, 541662597140),
  (8508, 524741470216, 34788443904560), (8319, 371723808749, 1497785352700),
  (8276, 227408171672, 29912639426920), (8064, 571681525179, 5513787859430),
  (7830, 90313686798, 22286032299360), (8335, 448600419464, 7011573212130),
  (8763, 581519440120, 15349535039770), (8472, 391387041805, 33365734504400),
  (9874, 596526143660, 3516409022120), (9647, 38872626737, 41555249061210),
  (7106, 150598488470, 99171387862270), (6596, 118068235818, 9687299909510),
  (8065, 225930653257, 20618554843720), (6479, 299461362786, 38012776796000),
  (9012, 605343622530, 14638180339690), (6131, 5596259493, 9916062095550),
  (5799, 82465326137, 14244965013380), (5816, 463029217647, 4950880430180),
  (5608, 66268449799, 5810682401090), (5966, 248916255408, 37301422095920),
  (5710, 223566160404, 8019822453870), (5272, 506746739956, 44068227252570)]

/-- `vsop87d_dict.py` 29795-29886. -/
def uranusR2_1 : List (ℕ × ℕ × ℕ) := [
  (5162, 436457872885, 97748678462110), (5428, 85181859845, 54695644048200),
  (5766, 34229025692, 53680451209540), (5924, 548443563529, 7647851959670),
  (5340, 373073116400, 2357587323610), (5174, 413873402677, 13288842257820),
  (5310, 614059082194, 3961750834610), (5790, 339593613152, 45809076026500),
  (5007, 425821412289, 52257741809380), (4967, 479184817938, 38724131496080),
  (5183, 325775152471, 56118353448360), (4602, 169262282455, 15253214255120),
  (5302, 183522660093, 12429040286910), (5005, 36630565950, 6076695288680),
  (4454, 230288945184, 31245971639350), (4457, 45775730382, 3313710079170),
  (5722, 89523844278, 8189514556810), (5842, 92039543147, 2060692781950),
  (5743, 66226484448, 3813303563780), (4255, 355373860346, 47928838891550),
  (4190, 437674804409, 7923501669220), (4194, 164986267170, 12895626931510),
  (5125, 140553011416, 14414657116320), (4045, 607362424798, 1964371997300),
  (3984, 577178406410, 28808069400530), (5017, 299521887648, 2920494752860),
  (3842, 260024827897, 42659819087600), (3861, 319886211335, 15912442469020),
  (3870, 443713601497, 14169889060840), (5316, 407970979457, 11143016149680),
  (4553, 1384318412, 29823262239190), (3737, 528319518103, 35330106501700),
  (3939, 527301148162, 52109294538550), (3710, 515385470848, 49033408917940),
  (4039, 60924359087, 15201087768940), (3861, 134394383700, 53532003938710),
  (4385, 62057680100, 82717282796110), (3567, 471986443303, 690109867970),
  (3576, 324526237368, 23056457082540), (3469, 79054323335, 98311585891360),
  (4524, 286819565712, 12991947716160), (3648, 559395544992, 77448262992160),
  (3513, 449630054276, 37619561469690), (3432, 255614913808, 25887574647670),
  (4352, 209804374929, 40450679034820), (3336, 89628904042, 46913646052890),
  (3274, 386236880159, 4253826965290), (3201, 276459652868, 24872381809010),
  (3184, 7709843451, 151429129671650), (3783, 529835962126, 36908206769610),
  (3266, 224754480216, 7381839072080), (3055, 260120354415, 43371173787680),
  (3051, 454953369151, 98066817835880), (3062, 127089879603, 20076892246580),
  (3055, 170878161343, 63989728631400), (3110, 363187411723, 1667477455640),
  (3472, 493521260607, 41162033734900), (3531, 449372794858, 88150755740330),
  (3284, 559170577331, 47217484191470), (3015, 602967446446, 29126208774300),
  (3467, 217484439267, 55406998748280), (3138, 52367930477, 109480665284130),
  (3257, 249339546514, 45172797278960), (2881, 50481204892, 30534616939270),
  (3082, 420145474081, 14659425171800), (2883, 244983947531, 13533610313300),
  (2965, 39294995530, 2527279426550), (2831, 252728803131, 86728046340170),
  (2728, 529491477549, 12598732389850), (2857, 471106805785, 21892816973050),
  (2763, 427510031656, 35033211960040), (2730, 198552777251, 8285835341460),
  (2857, 308706426922, 21648048917570), (3365, 367691210011, 66109491496450),
  (2925, 143646759644, 38161224066830), (2753, 39468041761, 3367961751290),
  (2756, 462672498840, 135761455258110), (3450, 212911756067, 68547393735270),
  (2571, 592862393284, 8975945209430), (2677, 76342313946, 48640193591630),
  (2689, 416436463826, 23539049596580), (2646, 381808560938, 55088859374510),
  (3369, 317071565345, 10846121608020), (2613, 568333838067, 2437902238820),
  (2736, 187107584495, 52969096509460), (2606, 436605237304, 108057955883970),
  (2407, 307343136742, 39117346822390), (2446, 573846381540, 53591074021810),
  (2334, 518878243102, 105938193018920), (2568, 109886876369, 91300012679230),
  (2236, 610115874045, 14000196957900), (3053, 535047433775, 68154178408960)]

/-- `vsop87d_dict.py` 29694-29887. -/
def uranusR2 : List (ℕ × ℕ × ℕ) := List.flatten [
  uranusR2_0, uranusR2_1]

/-- `vsop87d_dict.py` 29889-29943. -/
def uranusR3_0 : List (ℕ × ℕ × ℕ) := [
  (1164382, 473453291602, 7478159856730), (212367, 334255734999, 6373589830340),
  (196408, 298004616318, 7084944530420), (104527, 95807937648, 1104570026390),
  (71681, 2528455665, 5662235130260), (72540, 99701907912, 14956319713460),
  (54875, 259436811267, 393215326310), (34029, 381553325635, 7626607127560),
  (32081, 359825177840, 13140394986990), (29641, 344111535957, 8582729883120),
  (36377, 565035573017, 7796299230500), (27663, 42836001470, 318139373770),
  (27464, 255126467481, 5269019803950), (24569, 514034173566, 7871375183040),
  (19390, 513477648625, 1815924726470), (15767, 37116951743, 44779581952650),
  (15441, 557271837433, 46202291352810), (15232, 385998573509, 7329712585900),
  (15475, 297496547327, 14563104387150), (17951, 0, 0),
  (15958, 519915553904, 7160020482960), (11056, 603152659562, 13851749687070),
  (10529, 358261852497, 22434479570190), (7606, 144542030704, 148447270830),
  (8121, 261579604319, 2209140052780), (7107, 543946774526, 26992144674060),
  (6459, 437142319461, 28414854074220), (6818, 1396812984, 15104766984290),
  (8101, 29563819537, 12747179660680), (5768, 422672716593, 37301422095920),
  (5022, 184154937974, 20225339517410), (4692, 278404575440, 12035824960600),
  (5087, 77745294804, 6225142559510), (4160, 183820502779, 7233391801250),
  (3922, 188900691473, 20936694217490), (5201, 415791319343, 19513984817330),
  (3636, 199709010456, 6522037101170), (3582, 392592140377, 12429040286910),
  (3808, 104818660873, 9294084583200), (4241, 395755998904, 956122755560),
  (3497, 154139696251, 14807872442630), (3195, 298608971329, 38724131496080),
  (3950, 185721204932, 15274459087230), (3277, 140881404192, 35181659230870),
  (3605, 117366167402, 15349535039770), (2940, 603594958459, 1253017297220),
  (2744, 564674283515, 13458534360760), (2800, 79480255927, 57222923474750),
  (3054, 584310939105, 16060889739850), (2662, 198593312104, 45097721326420),
  (2700, 277036653988, 21329909543800), (2323, 167918985468, 35893013930950),
  (2254, 577129530133, 8434282612290), (2291, 481424601600, 53680451209540),
  (2213, 220360299816, 46595506679120)]

/-- `vsop87d_dict.py` 29888-29944. -/
def uranusR3 : List (ℕ × ℕ × ℕ) := uranusR3_0

/-- `vsop87d_dict.py` 29946-29956. -/
def uranusR4_0 : List (ℕ × ℕ × ℕ) := [
  (52996, 300838033088, 7478159856730), (9887, 191399083603, 5662235130260),
  (7008, 508677527404, 1104570026390), (6728, 542924958121, 14956319713460),
  (3703, 522728581851, 13140394986990), (3361, 129695290266, 8582729883120),
  (2664, 44064577837, 6373589830340), (2309, 92380720934, 14563104387150),
  (2383, 621390585593, 35893013930950), (2288, 223425399117, 44068227252570),
  (3093, 314159265359, 0)]

/-- `vsop87d_dict.py` 29945-29957. -/
def uranusR4 : List (ℕ × ℕ × ℕ) := uranusR4_0

/-- `vsop87d_dict.py` 28051-29958 `_planets[("Uranus", "R")]`. -/
def uranusR : List (List (ℕ × ℕ × ℕ)) :=
  [uranusR0, uranusR1, uranusR2, uranusR3, uranusR4]

end Verif.Data

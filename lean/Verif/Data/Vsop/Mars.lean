import Mathlib.Data.Nat.Notation

/-! Generated by tools/gen_vsop.py from vsop87d_dict.py; do not edit.
Each row is amplitude, phase and frequency in units of 1e-11. -/

namespace Verif.Data

/-- `vsop87d_dict.py` 11085-11184. -/
def marsL0_0 : List (ℕ × ℕ × ℕ) := [
  (620347711583, 0, 0), (18656368100, 505037100303, 334061242669980),
  (1108216792, 540099836958, 668122485339960), (91798394, 575478745111, 1002183728009940),
  (27744987, 597049512942, 352311834900), (10610230, 293958524973, 228123049651060),
  (12315897, 84956081238, 281092146160520), (8926772, 415697845939, 1725365220),
  (8715688, 611005159792, 1336244970679920), (6797552, 36462243626, 39814900340820),
  (7774867, 333968655074, 562184292321040), (3575079, 166186540141, 254431441988340),
  (4161101, 22814975330, 294246342329160), (3075250, 85696597082, 19144826611160),
  (2628122, 64806143570, 333708930835080), (2937543, 607893711408, 6731030280),
  (2389420, 503896401349, 79629800681640), (2579842, 2996706197, 334413554504880),
  (1528140, 114979306228, 615153388830500), (1798808, 65634026844, 52969096509460),
  (1264356, 362275092231, 509215195811580), (1286232, 306795924626, 214616541647520),
  (1546408, 291579633392, 175153953141600), (1024907, 369334293555, 896245534991020),
  (891567, 18293899090, 1670306213349900), (858760, 240093704204, 291401423582380),
  (832718, 246418591282, 334059517304760), (832724, 449495753458, 334062968035200),
  (712899, 366336014788, 105938193018920), (748724, 382248399468, 15542039943420),
  (723863, 67497565801, 373876143010800), (635557, 292182704275, 843276438481560),
  (655163, 48864075176, 312731333126180), (550472, 381001205408, 98032106820),
  (552746, 447478863016, 174801641306700), (425972, 55365138172, 628307584999140),
  (415132, 49662314774, 21329909543800), (472164, 362547819410, 119444701022460),
  (306552, 38052862973, 668474797174860), (312141, 99853322843, 667770173505060),
  (293199, 422131277914, 2077539549240), (302377, 448618150321, 353206069281140),
  (274028, 54222141841, 334054511639700), (281073, 588163372945, 134986740965880),
  (231185, 128240685294, 387030339179440), (283600, 576885494123, 314916416058820),
  (236114, 575504515576, 333349887969900), (274035, 13372501211, 334067973700260),
  (299396, 278323705697, 625462666252360), (204161, 282133266185, 122184856632140),
  (238857, 537155471672, 413691043351620), (188639, 149103016486, 949214631500480),
  (221225, 350466672203, 38289653222320), (179196, 100561112574, 95171840625060),
  (172110, 43943041719, 548677784317500), (193126, 335715137745, 359042865180),
  (144305, 141874193418, 13506508003540), (160011, 394854735192, 456246099302120),
  (174068, 241360332576, 55356940284240), (130993, 404491720264, 1230306777661000),
  (138245, 430145176915, 711354700080), (128062, 180665643332, 508862883976680),
  (139897, 332592516164, 270071514038580), (128102, 220806651008, 159259601363280),
  (116945, 312805282207, 790307341972100), (110375, 105195079687, 24272860397400),
  (113486, 370070798123, 158907289528380), (100090, 324343740861, 1177337681151540),
  (95592, 53954181149, 2004367456019880), (98947, 484558294740, 668124210705180),
  (104541, 78535382076, 882739026987480), (84187, 398970720730, 439999435688900),
  (86931, 220186740523, 1124368584642080), (71437, 280307550016, 318519202726560),
  (72091, 584672102525, 588492684658320), (73476, 218428012567, 842924126646660),
  (98946, 281481140371, 668120759974740), (68414, 273834914412, 228834404351140),
  (86751, 102092221563, 707937385680780), (65320, 268118597578, 2844918746780),
  (83749, 320256130990, 469047983635860), (75034, 76643418252, 646792575796160),
  (68984, 376399731788, 604132756708560), (66706, 73630620766, 372350895892300),
  (63314, 452771470470, 42659819087600), (61683, 616831509419, 227411694950980),
  (52256, 89941531307, 962368827669120), (55488, 460625467020, 429233083295040),
  (51332, 414823636534, 334159274776800), (56629, 506250410206, 1525247118500),
  (63376, 91296240798, 355391152213780), (45829, 78784235062, 199074501704100),
  (48542, 395670418719, 453505943692440), (41223, 602019329922, 389418182954220),
  (41939, 358326425115, 803109226305840), (56396, 168727150304, 687267311951120),
  (55909, 346260833495, 26308392337280), (51678, 281307492682, 333963210563160),
  (40671, 313832621829, 959523908922340), (38107, 73401946320, 1002536039844840)]

/-- `vsop87d_dict.py` 11185-11284. -/
def marsL0_1 : List (ℕ × ℕ × ℕ) := [
  (39495, 563225392160, 309788382272579), (44174, 319529736702, 562895647021120),
  (36716, 263720775102, 69215760122680), (45905, 28718981497, 561472937620960),
  (38352, 582880707426, 319104922956520), (38206, 234835984063, 16246663613220),
  (32562, 48400659333, 668129216370240), (37135, 68508150774, 281803500860600),
  (31168, 398160912982, 2035531939880), (32561, 89250316888, 668115754309680),
  (37752, 415482955299, 280380791460440), (33626, 611992401052, 648977658728800),
  (29007, 242707385674, 331983703120740), (38790, 135198498795, 1001831416175040),
  (33148, 114023770004, 552292430740), (27584, 159691203058, 721091581849420),
  (28686, 572055456734, 747752286021600), (34031, 259544082509, 1176985369316640),
  (25380, 52093116112, 1063666534980), (26357, 134532646574, 349603282613400),
  (24554, 400323183088, 1137170468975820), (25637, 24963523420, 52257741809380),
  (27278, 455645328122, 336138782219220), (23764, 184058377256, 1283275874170460),
  (22816, 352628212106, 164844675719740), (22274, 72106133721, 26660704172180),
  (21202, 311824472284, 295771589447660), (20158, 367131504946, 175865307841680),
  (21530, 615388757177, 326434635542420), (20093, 108247416065, 706412138562280),
  (21343, 428218757863, 403277002792660), (27540, 608389942337, 667411130639880),
  (19849, 237668920745, 1071399488132620), (25512, 343242352804, 344370520091840),
  (22542, 564861703438, 238889402044920), (24378, 96994696413, 63278373931320),
  (23079, 474990214223, 334772597370060), (17709, 369742343974, 334420285535160),
  (22662, 395446324417, 498905918389720), (22604, 524082917494, 320554734666440),
  (16811, 548619684111, 388133535800), (18422, 422535881468, 278704302385740),
  (22737, 498520896596, 763294325965020), (16648, 252823633184, 1458429827312060),
  (20963, 427878216453, 509926550511660), (16042, 176786752521, 347567750673520),
  (15816, 313240869691, 5937386191360), (18113, 325756020453, 333702199804800),
  (19295, 323911854642, 704623669800), (16772, 439731507110, 1564368020330980),
  (17555, 409197396097, 7478159856730), (13704, 254117018160, 493320844033260),
  (16011, 154669633224, 1405460730802600), (13547, 404152185347, 492968532198360),
  (14566, 345210993051, 737338245462640), (13926, 540797129468, 1097355568635000),
  (14246, 59808746067, 2387843774780), (14023, 144218648988, 1040473381232260),
  (16051, 379409950488, 211876386037840), (13714, 359050634457, 1511398923821520),
  (18038, 425391532000, 248741604494780), (15846, 56901288692, 10309277421860),
  (13403, 516920432994, 1021328554621100), (16069, 236895958451, 326583082813250),
  (12773, 10483085657, 723479425624200), (12199, 173079687044, 3602786667740),
  (12283, 519940030635, 1002185453375160), (11945, 547997890162, 292112778282460),
  (11890, 476593905835, 582802847164760), (12283, 316862882612, 1002182002644720),
  (13274, 617806905340, 174442598441520), (11777, 572731550900, 42007609361),
  (12340, 252146766331, 290690068882300), (14458, 438010658432, 31639186965660),
  (10639, 345016942919, 63989728631400), (10925, 60397688999, 508503841111500),
  (10645, 547696728127, 41948464387520), (10797, 137191539718, 1041998628350760),
  (10565, 109061610786, 1216800269657460), (9578, 489489266197, 323040610548040),
  (9808, 583632873998, 1431416811304980), (9720, 628282606427, 922553927328300),
  (9146, 110220667397, 980853818466140), (12733, 179883375851, 1374534623902240),
  (9779, 360056884868, 20618554843720), (12156, 442295240981, 1471231711645800),
  (8801, 397218590685, 17067287061920), (10685, 433894776374, 774060678358880),
  (10041, 138294666830, 358334103067380), (8499, 429275471153, 42988312670),
  (9882, 269148019691, 3660536530420), (10585, 89641284928, 2338428698689860),
  (8478, 286886131803, 938193999378540), (9560, 433382353581, 13154196168640),
  (8433, 315239733970, 652580445396540), (7517, 124476310635, 689452394883760),
  (6753, 158869332894, 683664525283380), (6666, 438910103043, 6648740891440),
  (6697, 577315870484, 520235827933520), (6188, 157847967850, 332535995551480)]

/-- `vsop87d_dict.py` 11285-11384. -/
def marsL0_2 : List (ℕ × ℕ × ℕ) := [
  (8392, 290734956761, 4371891230500), (6427, 603333185624, 57434479833480),
  (6296, 6976040737, 196483862685400), (6144, 543713363624, 186174585263540),
  (8180, 43967386003, 270782868738660), (6532, 124907069366, 1296430070339100),
  (7341, 495693808975, 376721061757580), (6134, 316322441707, 668024453233140),
  (5937, 422752447794, 445936821880260), (5848, 430379700916, 787567186362420),
  (5895, 77226207039, 269973481931760), (5962, 301318151415, 336906161416760),
  (6307, 177830983983, 217813772229200), (6103, 449866000852, 668220517446780),
  (5770, 96127853878, 1391601910964160), (5725, 493042706875, 238432327072920),
  (7576, 616308742022, 653166165626500), (7285, 52756973131, 1057540668294180),
  (5212, 348999909365, 1293585151592320), (5266, 451201042373, 614442034130420),
  (6632, 348100908925, 111875579210280), (5182, 325459432228, 239143681773000),
  (5214, 1023839897, 53321408344360), (5436, 618510045571, 842565083781480),
  (5491, 342235890731, 313442687826260), (5773, 355190490896, 896956889691100),
  (5093, 60873962999, 895534180290940), (4798, 463144694279, 456957454002200),
  (5773, 592316959013, 64087760738220), (5661, 75892958537, 312019978426100),
  (4912, 170762118141, 1335892658845020), (5438, 429256867866, 350307906283200),
  (4631, 334058594066, 311626763099790), (5823, 239009621568, 330247939106200),
  (5095, 112497131307, 533135744374080), (4409, 138708732950, 1725663153634140),
  (4193, 19116539271, 983038901398780), (4164, 43798301495, 106649547719000),
  (4220, 169427060019, 1352491634293140), (5192, 363500646439, 53680451209540),
  (5664, 50446281443, 530545105355380), (5264, 540031180025, 335586489788480),
  (5403, 596867227489, 307400538497800), (4046, 83826342101, 1002190459040220),
  (4153, 314497570817, 843987793181640), (4820, 109025983917, 1336597282514820),
  (4906, 373078406569, 122896211332220), (4576, 99344843456, 615864743530580),
  (4211, 387091723842, 331216323923200), (4917, 625051681717, 1765478053974960),
  (3597, 607298181151, 1081813528691580), (3547, 187663674277, 1739521973472580),
  (3734, 137011069213, 397339616601300), (4422, 289974680697, 624751311552280),
  (3975, 403441621102, 105226838318840), (4466, 459188422424, 551875014899180),
  (3445, 426610076208, 317814579056760), (3607, 424527056399, 832967161059700),
  (3511, 195133364438, 1017725767953360), (3300, 68865737747, 14956319713460),
  (3235, 390171358031, 2740155609680), (3946, 581982010903, 626174020952440),
  (3387, 14377701728, 1001472373309860), (3374, 74722238154, 604844111408640),
  (3090, 398540766861, 264845482547300), (3821, 523987859516, 572493569742900),
  (3026, 34314724795, 22041264243880), (4052, 124671617482, 1002176996979660),
  (2937, 73100893561, 275151061100), (3084, 379925632319, 16958018313300),
  (4040, 291258200196, 2274729071487440), (3246, 490760526525, 670200024889200),
  (3223, 92640008610, 1686552876963120), (2879, 147180601483, 334613535100720),
  (3723, 49978317761, 148447270830), (2798, 326910698548, 916864089834740),
  (3347, 68791690253, 386318984479360), (3440, 277706064625, 666044945790720),
  (2798, 279673379094, 1685848253293320), (2753, 441190782119, 341539402526710),
  (2703, 19222683184, 323751965248120), (2719, 326628341377, 391495722503460),
  (2941, 376169133143, 678431762761820), (3078, 548104322207, 333508950239240),
  (2701, 508537226206, 668833840040040), (2606, 483032556909, 467266731424060),
  (2883, 264068086362, 332025710730100), (3089, 439619824300, 133205488754080),
  (3438, 193467064449, 1055152824519400), (3433, 20933510815, 660495878212400),
  (2513, 288151502604, 1792491069982040), (2683, 368680362407, 360369635007260),
  (2696, 266931776730, 1018430391623160), (2386, 105710815775, 360721946842160),
  (2444, 346901444423, 629832832117640), (2566, 555941956468, 654615977336420),
  (2354, 85896789940, 335124909204960), (2304, 607210985790, 121473501932060),
  (2387, 430419979225, 336096774609859), (3109, 218099805904, 1617337116840440)]

/-- `vsop87d_dict.py` 11385-11484. -/
def marsL0_3 : List (ℕ × ℕ × ℕ) := [
  (2907, 343894993113, 269360159338500), (2550, 418354174372, 354679797513700),
  (2991, 237500894603, 1351787010623340), (2508, 599249607455, 572950644714900),
  (2202, 558486973955, 66475604513000), (2467, 281052575497, 1511046611986620),
  (2154, 359696831702, 667763442474780), (2166, 335965682842, 58906482700820),
  (2112, 457048853017, 612765545055720), (2178, 321663279493, 2019909495963300),
  (2260, 362776666288, 779998064550240), (2703, 589441421026, 643849624942560),
  (2201, 469972051344, 1727740693183380), (2131, 251801264340, 154535398297880),
  (2093, 403688419630, 668481528205140), (2249, 526171743929, 561831980486140),
  (2117, 480404492675, 365700429635640), (2265, 387401620754, 11020632121940),
  (2521, 421237950687, 249452959194860), (2492, 610452779411, 332997576135000),
  (2154, 459093274516, 562536604155940), (1929, 121920197307, 2185082932640),
  (2343, 90613584736, 22747613278900), (1871, 203707390080, 5689837493560),
  (1894, 412432529517, 339998628861340), (2271, 378951734652, 791018696672180),
  (1876, 302034887080, 488596640967860), (2145, 474972617629, 1898429263000960),
  (2035, 275110234296, 12801884333740), (1770, 273496011079, 660644325483230),
  (1733, 170571779606, 668366387410), (1743, 222986352012, 1708595866572220),
  (1723, 198207274526, 73587651353180), (1814, 92405242552, 455534744602040),
  (1661, 307319305915, 169216566950240), (2332, 505223613332, 2061801935853360),
  (1653, 386316179052, 69927114822760), (1890, 414080522607, 545937628707820),
  (1680, 349750704538, 334765866339780), (1909, 211478314309, 681628993343500),
  (1918, 331232891649, 333356619000180), (1707, 488386665097, 340709983561420),
  (1577, 351777131580, 1336243245314700), (1827, 114937084769, 280739834325620),
  (2094, 178938870686, 2059724396304120), (1577, 554854302324, 1336246696045140),
  (1677, 439073937265, 827029774868340), (1561, 80246904730, 301710701004240),
  (1552, 266876850182, 302422055704320), (1708, 209721350898, 281444457995420),
  (2109, 148733908496, 267937949991880), (1547, 212956399169, 66123292678100),
  (1764, 590517079295, 332638533269820), (1503, 434389183170, 1393679450513400),
  (1504, 83367652471, 477576008845920), (1543, 582417982389, 334449376205780),
  (1458, 142630589706, 1550861512327440), (1648, 288801518612, 827382086703240),
  (1527, 110261249454, 267585638156980), (1800, 517144672709, 3813303563780),
  (1439, 48751113425, 7626607127560), (1478, 463008666184, 1980094595622480),
  (1770, 218315009072, 230158581590939), (1712, 260291779744, 2942950853600),
  (1416, 246912016889, 259762236616720), (1835, 393223068469, 684369148953180),
  (1437, 348241890037, 328123856478620), (1385, 418004525683, 228475361485960),
  (1479, 388994194685, 603421402008480), (1469, 291808856545, 1272255242048520),
  (1824, 394139541752, 1845460166491500), (1368, 171899681607, 1376059871020740),
  (1406, 242916192473, 85319638175200), (1361, 469126219798, 1108121921028860),
  (1375, 490787845983, 330458456002240), (1544, 323251603238, 15640072050240),
  (1543, 113497136095, 333673109134180), (1385, 290281983822, 158195934828300),
  (1311, 621748423079, 254783753823240), (1377, 256537541792, 56882187402740),
  (1474, 465215247212, 39462588505920), (1619, 7481583409, 143514766175940),
  (1369, 8979359617, 789595987272020), (1272, 584659079053, 2133564046700),
  (1331, 380007277718, 1311972110282519), (1202, 590681878458, 18792514776260),
  (1284, 530205682052, 657101853218020), (1468, 591503888421, 333912795399150),
  (1497, 257629850836, 15189728108520), (1270, 408996241400, 435627544458400),
  (1159, 546309207, 79982112516540), (1154, 181024985603, 15894351778320),
  (1170, 415567553953, 1422709400160), (1349, 39391022745, 254079130153440),
  (1403, 489956428847, 403988357492740), (1188, 346422365287, 101566301788420),
  (1136, 554132891775, 1355389797291080), (1282, 452288421340, 392967725370800),
  (1124, 140102701439, 1314915061136120), (1254, 384775964741, 398050971301380)]

/-- `vsop87d_dict.py` 11485-11584. -/
def marsL0_4 : List (ℕ × ℕ × ℕ) := [
  (1121, 504552583589, 2314155838292460), (1088, 89388884633, 334019235060619),
  (1476, 420852908107, 1646033352952499), (1084, 570551481838, 376009707057500),
  (1197, 124543578245, 2672489941359840), (1253, 582286965998, 334454457996290),
  (1078, 624742453183, 1781252211800), (1462, 227467510211, 36969981594040),
  (1044, 434158344243, 227770737816160), (1099, 408747611117, 80236392244620),
  (1122, 431726854418, 10766352393860), (1148, 42666214138, 94917560896980),
  (1183, 31560034120, 116247470440780), (1130, 346061330657, 573204924442980),
  (1059, 134075999078, 214968853482420), (1126, 522902222299, 19497138446060),
  (977, 344426658417, 977910867612540), (1134, 13507173479, 1256615169998280),
  (1185, 365682936623, 645688005769770), (962, 485370284827, 351019260983280),
  (1033, 247380728164, 3197230581680), (1172, 172927931309, 692395345737360),
  (986, 105152205629, 1633583780453660), (1292, 602388659607, 331673398895200),
  (932, 156812178735, 11118664228760), (1130, 206879370733, 337664029337720),
  (924, 82106390115, 336449086444760), (1005, 548594935121, 1123657229942000),
  (936, 158837554752, 1023513637553740), (1063, 193321644244, 8730820453981),
  (945, 510393817688, 801327974094040), (957, 441421752360, 43371173787680),
  (921, 171021166461, 206793140107260), (910, 191562889347, 40167212175720),
  (931, 461327789373, 541565737477320), (1033, 398512631089, 1059618207843420),
  (908, 530549216988, 710782304427560), (945, 21610469082, 987227408296480),
  (991, 276931703924, 593823479286700), (918, 437217510741, 185463230563460),
  (889, 181025662091, 240924933984800), (1058, 363303046818, 725556965173440),
  (860, 278826625605, 562186017686260), (860, 75749461239, 562182566955820),
  (850, 382228424021, 27267295735160), (851, 25287875945, 1176626326451460),
  (853, 184243320985, 214264229812620), (1030, 42255009123, 159618644228460),
  (826, 126069501589, 2020614119633100), (835, 464394754967, 12795153303460),
  (1046, 350232998647, 986641688066520), (824, 242928138519, 1104570026390),
  (1090, 606536924506, 334103250279340), (808, 117345081945, 646081221096080),
  (821, 19617131185, 2274340937951640), (804, 503144428114, 254279728080),
  (1074, 280025232939, 307752850332700), (794, 457067003887, 522369391980220),
  (822, 90150471199, 864606348025360), (884, 171007411939, 393215326310),
  (850, 124977903471, 1229595422960920), (926, 302847055739, 337721779200400),
  (779, 197930055918, 540854382777240), (960, 616414205869, 854297070603500),
  (785, 463077378309, 334104230982650), (752, 351125131831, 1002085695903120),
  (749, 250286751020, 229545759051220), (801, 454004277501, 103902661079040),
  (735, 391703254169, 1231018132361080), (784, 324368310213, 338433133900480),
  (719, 335536995801, 1178049035851620), (940, 358974561600, 2353970738633280),
  (865, 112444569157, 20670073729660), (731, 561232905415, 1606218452611680),
  (823, 265316808033, 316993955608060), (903, 486743346013, 93136308685180),
  (705, 146305394620, 79277488846740), (754, 289691411536, 329689351439480),
  (736, 221038016464, 14681168652360), (785, 232844966721, 334018254357310),
  (685, 234948834397, 118064265210), (677, 433803507050, 387741693879520),
  (729, 356726385957, 48597205278960), (668, 516798891078, 1272157209941700),
  (713, 480558699772, 414297634914600), (842, 159708732155, 1630491313009080),
  (698, 191829605833, 666597238221460), (698, 464681188157, 1121628429032400),
  (684, 388514563357, 84608283475120), (666, 223927960017, 2073583216142559),
  (638, 205380863176, 1669953901514999), (726, 504566216294, 332956672643590),
  (697, 30680314664, 1967645023123640), (650, 323944472757, 958812554222260),
  (736, 224443728739, 1125079939342160), (692, 176465916332, 5128033786241),
  (645, 7661067442, 5226031491280), (685, 272118140264, 664309181776180),
  (684, 126157751115, 14217862703620), (635, 385231847116, 606591562980)]

/-- `vsop87d_dict.py` 11585-11684. -/
def marsL0_5 : List (ℕ × ℕ × ℕ) := [
  (819, 604967230806, 1940279695281660), (664, 360223930010, 190343681250120),
  (613, 496450118774, 885936257569160), (615, 574467417840, 669647732458460),
  (622, 164154132852, 2415008005134500), (659, 12506816965, 811637251515900),
  (679, 194943016061, 1299522537783680), (616, 494607504516, 948503276800400),
  (793, 284922599989, 2949181830340), (597, 572067567055, 311313629391080),
  (763, 42513533173, 387382651014340), (587, 131684217558, 949925986200560),
  (592, 434796024028, 382658447948940), (652, 553658742492, 906554812412880),
  (583, 59190068342, 2608402180621620), (603, 77135566630, 334209689940810),
  (701, 335897774328, 670967404086740), (574, 108976979801, 635771943674220),
  (750, 484737198179, 1002281760116760), (588, 565927128604, 217102417529120),
  (632, 384852695407, 1627646394262300), (632, 143230388645, 1670658525184800),
  (780, 115181502540, 37737360791580), (554, 418192049239, 38287927857100),
  (568, 3816333919, 641461781167780), (569, 257704345512, 3556273446860),
  (566, 62804830762, 318956475685690), (687, 561456944029, 15535308913140),
  (563, 257358138188, 1940667828817460), (693, 115645091892, 96697087743560),
  (576, 160357663736, 319253370227350), (621, 223214771591, 327412501778540),
  (586, 617266280012, 960235263622420), (541, 53968808391, 1317100144068760),
  (570, 311852290115, 222185663459700), (542, 41889651002, 164133321019660),
  (532, 16606105669, 551163660199100), (530, 378205188174, 727028968040780),
  (575, 548929613719, 207504494807340), (670, 367090656417, 647503930496240),
  (509, 421526585284, 738049600162720), (510, 159587338243, 1336238239649640),
  (494, 213711598060, 260473591316800), (534, 103109772656, 147886657406440),
  (506, 592145494356, 68504405422600), (469, 83917541691, 304148603243060),
  (468, 197135671591, 241277245819700), (468, 457635781664, 1167028403729680),
  (559, 147641018288, 867196987044060), (475, 207517976424, 583514201864840),
  (466, 292801596791, 227729834324750), (478, 613550464878, 482554491639400),
  (502, 77928275348, 440710790388980), (462, 380503324215, 1114059307220220),
  (499, 325557381873, 174449329471800), (525, 74022979976, 126556747862640),
  (521, 627577138682, 398149003408200), (482, 14820337530, 1415874771361560),
  (460, 203348517376, 2568587280280800), (510, 427704405425, 347215438838620),
  (444, 195486223268, 322621331978640), (575, 59007504383, 276626762836500),
  (437, 563861950911, 895893223156120), (492, 610071747922, 228516264977370),
  (572, 510308842466, 856430634650200), (430, 412851356192, 1324177239800),
  (544, 478254843814, 938095967271720), (430, 383861916944, 176576662541760),
  (499, 426055736809, 665277566593180), (541, 84245625839, 498194563689640),
  (591, 201874828234, 2749069247804480), (438, 136437546581, 1250925332504720),
  (470, 470961176845, 372349170527080), (421, 176100140625, 95628915597060),
  (413, 49206034039, 1335533615979840), (412, 29353415123, 281093871525740),
  (412, 324865417750, 1845107854656599), (412, 170721395764, 731400859271280),
  (412, 454594776716, 281090420795300), (448, 304254429984, 563607001721200),
  (510, 118739936388, 1336251701710200), (408, 132068176489, 2080946762464520),
  (427, 116100742040, 1900464794940840), (420, 349180180953, 165556030419820),
  (433, 55429134487, 994557120882380), (424, 460854671688, 651875821726740),
  (415, 567120343816, 9956965586960), (476, 594537443289, 4883519385644859),
  (405, 563206200287, 345081874791920), (495, 438317490235, 248030249794700),
  (415, 361905205961, 208978223039900), (395, 25208772249, 137577379984580),
  (421, 226337694295, 1389214067189380), (391, 525566087245, 1004261267559180),
  (504, 491016850189, 896597846825920), (417, 345088934666, 27978650435240),
  (389, 98703891513, 720380227149340), (431, 211881719623, 5680326216980),
  (497, 163121523594, 2234526037610820), (377, 406263841184, 1012493005431800)]

/-- `vsop87d_dict.py` 11685-11784. -/
def marsL0_6 : List (ℕ × ℕ × ℕ) := [
  (377, 316019395941, 22434479570190), (378, 582532048605, 667570192909220),
  (377, 5833226835, 90545669666480), (445, 33560120738, 51546387109300),
  (426, 266458973231, 407648894023160), (489, 75760372851, 356102506913860),
  (389, 50283826580, 282514855560680), (396, 514198726837, 519524473233440),
  (414, 312530321804, 1000106188460700), (502, 502356488339, 7329712585900),
  (432, 331538359140, 561791076994730), (359, 497622870666, 582091492464680),
  (359, 542072227300, 601999192661860), (449, 379544854612, 499617273089800),
  (374, 285563965649, 211165031337760), (426, 24129917209, 562577507647350),
  (423, 360507971235, 822657883637840), (402, 451813719510, 439288080988820),
  (391, 426714089799, 2179521409161479), (447, 425776540974, 1805292954315780),
  (355, 417584780659, 674059871531320), (353, 181574804066, 668674777770700),
  (462, 322304237134, 201110033643980), (341, 322071023668, 425318267036540),
  (475, 428822688035, 36722432896240), (462, 291312544527, 41892439890060),
  (416, 483203726375, 853585715903420), (431, 322440150226, 2126552312652020),
  (333, 399300815003, 135339052800780), (340, 71636465254, 1566403552270859),
  (416, 258443168474, 575338488489680), (356, 235639379021, 457074972000),
  (330, 404831945983, 310304225540), (381, 406283076724, 106290504853820),
  (431, 542246026973, 2648217080962440), (328, 406276954550, 694430877677240),
  (334, 510221163477, 2232490505670940), (400, 228211698182, 320907046501340),
  (420, 244159662565, 615505700665400), (375, 109229714548, 424606912336460),
  (449, 438183542571, 510637905211740), (330, 255172725319, 1951398359510420),
  (319, 405704496382, 543039465709880), (310, 499907184482, 509567507646480),
  (344, 62691832180, 938905354078620), (319, 331673970253, 59617837400900),
  (305, 466942910910, 675600645196690), (409, 607568936266, 5083245930580),
  (377, 542211267415, 119092389187560), (342, 267821304845, 614801076995600),
  (298, 591093444215, 988677220006400), (299, 544077050156, 1002895082710020),
  (315, 103304445564, 349017562383440), (369, 393279262125, 187955837475340),
  (304, 456372485787, 748358877584580), (330, 329725079066, 28696236112060),
  (290, 343850024020, 641814093002680), (289, 282766045300, 317103224356680),
  (317, 413345374602, 188308149310240), (294, 1906732590, 20225339517410),
  (310, 437565854379, 279669436760360), (364, 54935210242, 29048547946960),
  (291, 239413982848, 2902648522950779), (286, 576562894312, 564219824260920),
  (392, 301171327788, 1072110842832700), (318, 493376925851, 119797012857360),
  (315, 284437840100, 1061090210710760), (299, 118299169304, 55004628449340),
  (336, 430769818760, 598906725217280), (315, 141407863340, 694783189512140),
  (294, 616453752963, 898281066930900), (285, 282644088669, 965461295113700),
  (281, 27739627997, 816615734309380), (279, 408648927643, 535523588148860),
  (330, 311968019451, 4155079098480), (275, 589019272334, 333786091608880),
  (275, 400268079937, 362039893105220), (292, 306830662617, 436203638980),
  (317, 1919037405, 226700340250900), (272, 170373580224, 374228454845700),
  (294, 16019381973, 667058818804980), (264, 207967576148, 373523831175900),
  (262, 449437120405, 688741040183680), (307, 303375977801, 666086953400080),
  (280, 47728086796, 540143028077160), (268, 46331887242, 657813207918100),
  (312, 362016422039, 25597037637200), (278, 562032972822, 337874546233760),
  (268, 297528422526, 2194711137270000), (303, 271946492092, 331321087060300),
  (263, 385883671333, 2862833622609960), (257, 25607724431, 1914675926614180),
  (282, 229169514758, 200855753915900), (301, 83275594655, 280698930834210),
  (264, 378635346388, 393679080070880), (254, 128062508539, 9597922721780),
  (250, 558493858560, 41237109687440), (284, 471065509252, 562191023351320),
  (286, 511854366190, 562177561290760), (254, 577068701321, 581329118932200)]

/-- `vsop87d_dict.py` 11785-11884. -/
def marsL0_7 : List (ℕ × ℕ × ℕ) := [
  (311, 267573060947, 91257024366560), (252, 419548440341, 2485875881600),
  (255, 180023727978, 319380074017620), (247, 294199704738, 31084079886840),
  (261, 568285399692, 313391168940320), (255, 446589323429, 549030096152400),
  (247, 228207487665, 24625172232300), (257, 564335704456, 1070688133432540),
  (246, 26910281348, 2276849660940), (241, 3931394254, 907011887384880),
  (283, 130585259585, 402565648092580), (272, 128327911416, 144226120876020),
  (294, 402082336381, 281485361486830), (249, 492144829429, 3102275317085620),
  (237, 307683243726, 994705568153210), (236, 605766380360, 94819528790160),
  (309, 345153658664, 2528772379939980), (232, 499538565545, 150528780909299),
  (275, 120294105507, 669186151874940), (305, 273902403412, 17669373013380),
  (231, 513610567818, 699761672305620), (237, 90339496046, 809386806900),
  (229, 63250047970, 2301706265793620), (249, 605357589804, 206081785407180),
  (270, 214769161882, 297338809773740), (241, 463019900075, 161295133303160),
  (227, 594537053649, 294248067694380), (269, 593687481153, 400536847182980),
  (227, 391459879933, 294244616963940), (238, 514570745178, 72113923120620),
  (275, 106902528739, 334336393731080), (232, 352110290510, 667417861670160),
  (277, 19619249083, 27019747037360), (274, 30235979008, 560761582920880),
  (233, 575237138576, 60484974070480), (214, 338626276995, 64701083331480),
  (282, 29694635625, 1232342309600880), (282, 318114716742, 636483298374300),
  (264, 464751563064, 134634429130980), (280, 464995184564, 670158017279840),
  (246, 303036675631, 330400706139560), (213, 480555095681, 883091338822380),
  (220, 154642908481, 2354675362303080), (214, 135475764936, 18484990797020),
  (228, 429420876593, 297091261075940), (229, 253361265404, 371031224264020),
  (273, 189943168433, 27013016007080), (284, 328345980607, 1606316484718500),
  (211, 584341192825, 197195217385480), (214, 22905754741, 519919116580),
  (246, 455971876123, 604034724601740), (229, 124432891752, 356808855948880),
  (216, 320098680120, 36212113673080), (201, 245025935972, 2042657109242200),
  (223, 207804482295, 1710121113690720), (271, 349210901141, 343659165391760),
  (226, 42945734871, 55709252119140), (264, 505794940070, 293894030494260),
  (207, 603491870748, 2248737169284160), (197, 562923956977, 520947182633600),
  (211, 226445749553, 76579306444640), (202, 88670673933, 76784881934860),
  (212, 185965510753, 478287363546000), (194, 477420671032, 685080503653260),
  (192, 51565572072, 32350541665740), (209, 479794980231, 1404749376102520),
  (193, 256057288512, 1860649894600020), (209, 146088434217, 585720229960),
  (214, 97578687412, 1746885519794540), (196, 408789826861, 326286188271590),
  (198, 399111216230, 1001824685144760), (235, 111133081576, 62567019231240),
  (197, 48692287381, 1510687569121440), (214, 533581901309, 95524152459960),
  (199, 40088144456, 758668155006440), (251, 557906426342, 13858819838440),
  (208, 411480858445, 175506264976500), (210, 230499661227, 5330794628380),
  (253, 127099771143, 30927832265580), (242, 371426781511, 321259358336240),
  (178, 306961783443, 143717561419860), (203, 28410501881, 58299891137840),
  (190, 10457198807, 2608790314157420), (178, 53068485806, 736626890762560),
  (245, 420195166994, 843628750316460), (176, 366697456425, 668827109009760),
  (177, 448104044431, 879998871377800), (181, 357461078885, 1512110278521600),
  (198, 355065962909, 2460613555322000), (187, 345440079747, 132951209026000),
  (176, 581532365473, 1240616055082860), (235, 128568802052, 442739591298580),
  (179, 155718466444, 336246325602620), (174, 161086801253, 3006551184029820),
  (199, 7164714815, 37576573157020), (174, 458412775793, 328371405176420),
  (171, 582189798695, 2393785638974100), (182, 257146189845, 41850432280700),
  (168, 513131619552, 2139354196985760), (183, 493161962050, 946826787725700)]

/-- `vsop87d_dict.py` 11885-11984. -/
def marsL0_8 : List (ℕ × ℕ × ℕ) := [
  (167, 148091400654, 261947319549360), (169, 512437031125, 322329255847960),
  (188, 341823914376, 503277809620220), (181, 50010974122, 212587740737920),
  (164, 171077130702, 1584986575174700), (202, 621085922593, 390943430072720),
  (171, 586158194602, 62562513619720), (165, 385569118220, 1320702930736500),
  (163, 204373367430, 334729609057390), (160, 283784244321, 588844996493220),
  (212, 232801112252, 323294890276120), (163, 423488695195, 3196894865279940),
  (159, 148046671186, 24990446074220), (160, 21960307161, 1294296506292400),
  (220, 390787704883, 963894074787620), (161, 294093367568, 337004193523580),
  (159, 559017475732, 144227846241240), (221, 382548751198, 195471715036360),
  (192, 462595272276, 333668027343670), (164, 159200641542, 38641965057220),
  (169, 545784867095, 25956080502380), (201, 95077053594, 2942463423291600),
  (174, 115216485688, 638209845913040), (163, 116606667991, 428978803566960),
  (187, 322135956460, 275154759969160), (162, 479372588575, 2488957479599160),
  (192, 88040946364, 524404923920100), (160, 285034784370, 937482644678460),
  (172, 238601254063, 228124775016280), (202, 412164786769, 732112213971360),
  (156, 455171204694, 2768214074415640), (170, 462851491273, 1082420120254560),
  (157, 91363725609, 450308713110760), (156, 558255618318, 1044843547097540),
  (157, 92229160815, 1563656665630900), (171, 543820628341, 1190491877320180),
  (180, 189091405241, 1357574880223720), (198, 442539692212, 1002542770875120),
  (158, 412087914642, 1124016272807180), (211, 242218772392, 874915625447220),
  (183, 147934835951, 667734351804160), (197, 143469282909, 1406172085502680),
  (170, 432424842659, 74299006053260), (170, 292905324873, 909399731159660),
  (160, 279797608932, 146105405194640), (174, 537738922471, 331876159737340),
  (172, 35524089578, 228121324285840), (147, 276602235522, 419380880845180),
  (151, 423962231148, 336801398279660), (157, 101295201512, 2433600539314920),
  (165, 58335652806, 1590676412668260), (149, 569553079999, 3157079964939120),
  (154, 528504381510, 148140937134520), (163, 181288628510, 1884922754997420),
  (145, 357053080979, 349701314720220), (156, 356978076425, 2179169097326579),
  (143, 56704903096, 1321288650966460), (155, 8429188155, 665734641565180),
  (184, 254999403339, 2407644458812540), (146, 116594990123, 52616784674560),
  (144, 419229335185, 277179055267240), (169, 310771037057, 23920548562500),
  (144, 626688878164, 667974038069130), (174, 237509025280, 339751080163540),
  (163, 388047919138, 1670304487984680), (161, 173958633312, 218525126929280),
  (164, 62146994730, 153824043597800), (182, 616856014864, 668510618875760),
  (140, 408200595943, 418669526145100), (192, 447709998867, 5787869600380),
  (151, 306451266512, 83896928775040), (139, 112767399649, 668270932610790),
  (187, 497174626997, 668165473652630), (150, 569209290362, 936060435331840),
  (160, 566336382679, 1092729397676420), (137, 346860408347, 556246906129680),
  (192, 527908098216, 3436336559755600), (137, 587023088486, 294598654164060),
  (180, 107686767816, 1580614683944200), (135, 34109799474, 732210246078180),
  (169, 227408583150, 37937341387420), (172, 383276777655, 662185099148600),
  (134, 89486611090, 1328618363552360), (168, 324434245132, 1161443329373220),
  (135, 603727673544, 121480232962340), (150, 81912738038, 341687849797540),
  (136, 506627117467, 1442183163698840), (138, 519336961955, 1336343002786740),
  (163, 591124428824, 1670307938715119), (181, 331978654659, 13969813952280),
  (162, 405905033891, 179525844372100), (132, 40901506100, 108326036793700),
  (156, 12304144640, 110713880568480), (158, 625022915072, 666699775939800),
  (131, 395250083817, 345580804620), (147, 494673462086, 1501089646399660),
  (140, 613853404667, 1272966596748600), (131, 543398849473, 2566551748340920),
  (135, 506017183369, 1187646958573400), (128, 286969332730, 654968289171320)]

/-- `vsop87d_dict.py` 11985-12084. -/
def marsL0_9 : List (ℕ × ℕ × ℕ) := [
  (174, 518169887171, 2823018722269139), (179, 325589354429, 492257177498280),
  (139, 533624615245, 2395863178523340), (127, 578406495652, 1457718472611980),
  (128, 127276688747, 858466166590080), (133, 39052474466, 1241073130054860),
  (134, 109641189843, 896243809625800), (125, 320445201519, 2988204361020),
  (136, 362250122667, 351128529731900), (162, 536465149996, 247267876262220),
  (150, 40179894287, 111164224510200), (129, 194909076932, 1964552555679060),
  (172, 521328160366, 674771226231400), (126, 439378462616, 2154896236929180),
  (146, 385987749053, 1336146938573100), (156, 524740844581, 664519698672220),
  (137, 494588047257, 2099539296644940), (131, 172431469184, 1192527409260060),
  (136, 204268940441, 1065462101941260), (140, 154439148652, 821946528937760),
  (127, 616695075115, 1001631435579200), (155, 547145482987, 296894541660),
  (132, 625626202928, 1322738462676380), (121, 374135485334, 1029451023745100),
  (134, 312718351732, 896247260356240), (122, 77282907794, 493679886898440),
  (125, 423213631052, 1565079375031060), (157, 179175545524, 1648976303806100),
  (155, 415655698197, 5638318607620), (134, 153268827347, 70898980227659),
  (136, 401025697673, 979749248439750), (156, 461556268820, 335483952070140),
  (131, 447476808853, 1177689992986440), (118, 117466010141, 460617990532620),
  (128, 12648796247, 668164492949320), (122, 13511377940, 832255806359620),
  (119, 129139116350, 1054441469819320), (128, 444966050740, 1346554248101780),
  (119, 401709629990, 1448120549890200), (147, 181590279650, 68511136452880),
  (137, 478402836071, 361328538405140), (151, 148428558337, 969833186344200),
  (136, 247757608387, 1015690236013480), (123, 242353206298, 613322593260),
  (117, 540635440024, 68863448287780), (153, 500372030984, 1455689671702380),
  (133, 315773785434, 112586933910360), (153, 194292660454, 653314612897330),
  (124, 494608245253, 1282564519470380), (117, 113528750738, 445225467180180),
  (115, 334121813462, 1000148196070061), (115, 344586362144, 769688787128380),
  (117, 72489390402, 2746886639960), (132, 241318250916, 671725272007700),
  (118, 35995031424, 2783203821928320), (157, 173929012934, 1156007771607740),
  (148, 214023976341, 1526588651930040), (113, 129183863745, 2688031981303260),
  (151, 95890610457, 653017718355670), (153, 562679784282, 991163095888000),
  (157, 9791378159, 13851749687070), (119, 216883964744, 708289697515680),
  (113, 543102427558, 42202744115600), (130, 213493506322, 11781280289200),
  (140, 251194591630, 2898162997940), (128, 123822751200, 668080477730600),
  (111, 460294776614, 2513582651831460), (118, 34226497704, 414043355186520),
  (112, 402233737541, 631400052443720), (134, 335926214730, 1124720896476980),
  (120, 609430372868, 410640549114620), (117, 3006245187, 767379197540),
  (109, 362630036582, 334411829139661), (109, 194277745743, 1670299482319620),
  (114, 487315937546, 615151663465280), (109, 565707270595, 334415279870100),
  (108, 72637519191, 1056935504700), (128, 577326416186, 1336956325380000),
  (147, 473848506543, 1161091017538320), (145, 495495312886, 985937064396720),
  (111, 328808788953, 25701800774300), (112, 479777726412, 1214060114047780),
  (109, 373199687068, 1363512266415080), (117, 120057736014, 670510329114740),
  (149, 491688353237, 27703499374140), (108, 337299798972, 671783021870380),
  (106, 53379407701, 508510572141780), (125, 462770076269, 932967967887260),
  (107, 460288570375, 195772507985320), (113, 404786119569, 695389781075120),
  (106, 75378922686, 14989747512680), (114, 62074562387, 615155114195720),
  (108, 522204692781, 155656814695540), (104, 102502614223, 487885286267780),
  (133, 115811543786, 81665332621520), (134, 169834857217, 18386958690200),
  (104, 258832774275, 1459141182012140), (107, 442117075795, 713080065300),
  (126, 3750399181, 1683220104979), (102, 120624870972, 1198667590695340)]

/-- `vsop87d_dict.py` 12085-12184. -/
def marsL0_10 : List (ℕ × ℕ × ℕ) := [
  (102, 297579561878, 2982278323632420), (116, 473049067619, 1336604013545100),
  (130, 410484632841, 3560779058380), (113, 369200525056, 4465383324020),
  (111, 512900291511, 14679443287140), (126, 182187459534, 2688736604973060),
  (121, 608309355316, 710070949727480), (105, 616606590276, 917575444534820),
  (132, 297955203077, 125083019630080), (106, 508419485009, 874204270747140),
  (120, 59116561391, 3117265064598300), (112, 370888430091, 1005028646756720),
  (100, 182077956276, 1201258229714040), (107, 486100312387, 789955030137200),
  (99, 72997085174, 1897717908300880), (107, 525025570307, 6373589830340),
  (99, 279139996703, 1793202424682120), (97, 494370173613, 2810921461605200),
  (122, 418676567644, 1961707636932279), (121, 314207351411, 927884721956680),
  (112, 143537110436, 1623274503031800), (96, 257929371627, 1271543887348440),
  (96, 251396484677, 353558381116040), (112, 619137312195, 668515700666270),
  (109, 153428110338, 1670312944380180), (96, 429245810274, 790659653807000),
  (96, 308847844641, 346863127003720), (95, 609186084700, 1003708975128440),
  (94, 179812841802, 2004719767854780), (110, 424859410294, 333707205469860),
  (93, 217945548408, 1606606586147480), (115, 544548079869, 1135389216764020),
  (98, 189605054783, 3340612426699800), (101, 300793005829, 352853757446240),
  (96, 540659912420, 574986176654780), (113, 393443805059, 716719690618920),
  (92, 358985964414, 672494376570460), (119, 390561570260, 1134677862063940),
  (97, 257280790230, 174760737815290), (118, 382111723459, 907266167112960),
  (96, 72646224606, 315268727893721), (92, 623928508055, 2449142579258340),
  (99, 186991802881, 7205573335480), (94, 151091806861, 980142463766060),
  (91, 494377681711, 875626980147300), (95, 258771497236, 1166317049029600),
  (93, 66092443320, 3099198474860), (88, 247386826588, 1723275309859360),
  (100, 19616913512, 1188358313273480), (94, 61277732908, 7363546321960),
  (91, 604139177526, 15392523352440), (95, 30865798871, 2916859654624120),
  (110, 627936643935, 333710656200300), (87, 209287965409, 1026456588407340),
  (89, 327633365389, 300236972771680), (91, 189622049447, 3789542629036740),
  (118, 388268323672, 123607566032300), (94, 227819061990, 484590023579280),
  (85, 307438636612, 998370424446160), (86, 394463425808, 1676489074700),
  (99, 458890225582, 377432416457660), (86, 127758598252, 3451326307268280),
  (118, 610625309129, 45490936652730), (96, 608772700197, 175547168467910),
  (85, 473193631802, 457668808702280), (116, 88573303872, 1651161386738740),
  (83, 313948373813, 1019141746323240), (83, 36972674664, 975523023837760),
  (112, 226524635842, 1000658480891440), (87, 425461508452, 816813658240),
  (87, 531716927554, 186885939963620), (115, 330507830050, 1415770008224460),
  (87, 290507350729, 3699559061100), (83, 358400049244, 1292873796892240),
  (86, 246839611271, 11372943956840), (96, 299829695985, 651055198278040),
  (84, 134333260788, 413338731516720), (93, 241895388985, 2004015144184979),
  (85, 592093268818, 1229954465826100), (82, 471321236549, 773349323658800),
  (81, 526971110105, 1219997500239140), (80, 434410099751, 721802936549500),
  (95, 2613500045, 290101428980), (94, 622018441621, 2004369181385099),
  (85, 466573809999, 863894993325280), (79, 289839604813, 2285459602180400),
  (104, 94882888784, 273576268599500), (80, 168097745917, 1283987228870540),
  (85, 195515305721, 468695671800959), (94, 58147434179, 1412824277124560),
  (91, 116317999954, 349596551583120), (84, 404104644774, 981565173166220),
  (82, 183662951627, 1919047817844680), (80, 404733274699, 318871514561460),
  (84, 271620952175, 1208976868117200), (80, 277363158210, 949566943335380),
  (78, 577285430206, 1039760301166960), (84, 78188080031, 721443893684320),
  (94, 214762315943, 1353202988993220), (101, 576349087526, 148493248969420)]

/-- `vsop87d_dict.py` 12185-12284. -/
def marsL0_11 : List (ℕ × ℕ × ℕ) := [
  (82, 311421789241, 844699147881720), (96, 585152670536, 349250970778500),
  (79, 469625309523, 529833750655300), (97, 397960395898, 1820834994259200),
  (105, 174376904536, 3664856292950), (94, 418941238607, 2004365730654660),
  (75, 346629875063, 1334167431130680), (92, 267278833288, 668079497027290),
  (75, 459723160021, 999338809263160), (87, 91979096638, 842571814811760),
  (74, 42228487063, 4842928218232440), (74, 48470953224, 1145698494185880),
  (77, 10707484151, 137141176345600), (93, 138010528069, 314564104223920),
  (75, 528061257070, 1230659089495900), (79, 378666386040, 757867920960),
  (73, 442902162523, 1473728232560), (84, 341538432898, 663750594109460),
  (93, 341302342683, 159611913198180), (71, 313537213242, 948862319665580),
  (79, 233442828498, 1246553441274220), (78, 221525134547, 281098877190800),
  (99, 48801369293, 1749936014031540), (75, 410299895268, 552586369599260),
  (71, 404186021414, 25949349472100), (73, 220102876718, 3077450164257480),
  (74, 493439968296, 1351780279593060), (71, 532625652676, 667017915313570),
  (78, 217664185326, 1342182356871280), (88, 538469204503, 1776244406368820),
  (81, 248353174238, 7360095591520), (92, 113088448190, 774772033058960),
  (70, 116361323015, 522017080145320), (84, 583220387910, 2237827130260),
  (76, 521065604639, 427197551355160), (80, 401817623627, 331118291816379),
  (68, 245937697940, 627955273164240), (67, 431723563048, 228129780681340),
  (67, 488776321797, 437963903749020), (69, 357006764536, 1495504572043200),
  (78, 262374773232, 281085415130240), (67, 476301301456, 681276681508600),
  (70, 560319851277, 1338322510229160), (70, 305647570196, 1008121114201300),
  (81, 491537623765, 333392876282570), (82, 549204987110, 548325472482600),
  (65, 350466797067, 916152735134660), (65, 279212460026, 1349751478683460),
  (70, 93640431668, 610688005506480), (73, 257583496978, 661473744448520),
  (70, 84170070580, 1669594858649819), (69, 110040627005, 254433167353560),
  (63, 605841309176, 645374872061060), (69, 267053540192, 264134127847220),
  (86, 173112264739, 628659896834040), (62, 549002783256, 495708687808040),
  (72, 338857910283, 318421170619740), (69, 535281990892, 254429716623120),
  (64, 479175268505, 318166890891660), (60, 618449904353, 336194806716680),
  (65, 148236627574, 481947900076420), (54, 366018290396, 291753735417280),
  (64, 472286914683, 228116318620780), (53, 465521663671, 344827595063840),
  (60, 77450276964, 331927678623280), (51, 145142985881, 354731316399640),
  (51, 481258158513, 440351747523800), (50, 37366902835, 332279990458180),
  (50, 468787711774, 325330422216000), (67, 463578431535, 469400295470760),
  (49, 317471347671, 545226274007740), (51, 254791773443, 400184535348080),
  (48, 281171553464, 337258473251660), (54, 445945188023, 1028492120347220),
  (53, 385131213520, 975875335672660), (51, 111244863072, 690163749583840),
  (62, 142198009630, 683078805053420), (55, 561672988180, 4549458142974879),
  (54, 61701959453, 471638622654560), (54, 428556326526, 291049111747480),
  (45, 314626081312, 1395151453380740), (50, 416235480519, 1297955317457600),
  (46, 166182208107, 776800833968560), (45, 507701425888, 1495152260208300),
  (43, 431723459530, 588140372823420), (45, 239713581676, 885224902869080),
  (43, 210202660495, 333715661865360), (48, 19934255781, 190546476494040),
  (56, 525687695855, 1280888030395680), (49, 206320966659, 429690158267040),
  (42, 607282126953, 429585395129940), (43, 174571613780, 313083644961080),
  (50, 227112469544, 342792063123960), (50, 30214747765, 335842494881780),
  (43, 505297177283, 322942578441220), (54, 611998016428, 1689451039961060),
  (43, 190603004035, 345179906898740), (39, 50727886431, 1001120061474960),
  (52, 317851184154, 232494940881560), (38, 488249540246, 349955594448300)]

/-- `vsop87d_dict.py` 12285-12301. -/
def marsL0_12 : List (ℕ × ℕ × ℕ) := [
  (39, 528113083211, 334315522398060), (39, 498185580267, 346856395973440),
  (47, 216244218985, 1002736020440680), (37, 584953090935, 679143117461900),
  (48, 503779546898, 706410413197060), (38, 58076516432, 896638750317330),
  (51, 336181117037, 897668244391180), (42, 413725767158, 833678515759780),
  (38, 575425648893, 453153631857540), (38, 355681323215, 535171276313960),
  (40, 279414141035, 306793946934820), (40, 499798468494, 1004219259949820),
  (37, 182286411009, 1001795594474140), (36, 602115369796, 647452411610300),
  (44, 301299253859, 741710136693140), (45, 233470159894, 312379021291280),
  (39, 491767933978, 803461538140740)]

/-- `vsop87d_dict.py` 11084-12302. -/
def marsL0 : List (ℕ × ℕ × ℕ) := List.flatten [
  marsL0_0, marsL0_1, marsL0_2, marsL0_3, marsL0_4, marsL0_5, marsL0_6, marsL0_7, marsL0_8, marsL0_9, marsL0_10, marsL0_11, marsL0_12]

/-- `vsop87d_dict.py` 12304-12403. -/
def marsL1_0 : List (ℕ × ℕ × ℕ) := [
  (334085627474342, 0, 0), (1458227051, 360426053609, 334061242669980),
  (164901343, 392631250962, 668122485339960), (19963338, 426594061030, 1002183728009940),
  (3452399, 473210386365, 352311834900), (2485480, 461277567318, 1336244970679920),
  (841551, 445858256765, 228123049651060), (537566, 501589727492, 39814900340820),
  (521041, 499422678175, 334413554504880), (432614, 256066402860, 19144826611160),
  (429656, 531646162367, 15542039943420), (381747, 353881289437, 79629800681640),
  (314129, 496335266049, 1670306213349900), (282804, 315967518204, 254431441988340),
  (205664, 456891455660, 214616541647520), (168805, 132894813366, 333708930835080),
  (157587, 418501035954, 175153953141600), (133686, 223325104196, 98032106820),
  (116561, 221347652545, 105938193018920), (117591, 602407213861, 615153388830500),
  (113595, 542803224317, 373876143010800), (133563, 597421903927, 174801641306700),
  (91098, 109627836591, 134986740965880), (83301, 529636626272, 668474797174860),
  (113876, 212869455089, 119444701022460), (80776, 442813405865, 52969096509460),
  (79531, 224864266330, 896245534991020), (72505, 584208163240, 24272860397400),
  (72946, 250189460554, 95171840625060), (71487, 385636094435, 291401423582380),
  (85342, 390854841008, 55356940284240), (67582, 502327686473, 38289653222320),
  (65089, 101802439311, 334059517304760), (65089, 304879603978, 334062968035200),
  (61508, 415183159800, 314916416058820), (48477, 487362121538, 21329909543800),
  (46584, 131452419914, 318519202726560), (56520, 388813699320, 413691043351620),
  (47613, 118238046057, 333349887969900), (41343, 71385375517, 159259601363280),
  (40055, 531611875491, 2004367456019880), (40272, 272542480614, 711354700080),
  (32886, 541067411968, 628307584999140), (28244, 4534124888, 949214631500480),
  (22294, 588516997273, 387030339179440), (22431, 546592525433, 2035531939880),
  (22612, 83775884934, 309788382272579), (21418, 537934044204, 334054511639700),
  (23335, 616762213077, 353206069281140), (26579, 388960724782, 122184856632140),
  (22797, 154504711003, 227411694950980), (20431, 236353950189, 158907289528380),
  (20186, 336375535766, 508862883976680), (26554, 511271747607, 270071514038580),
  (19675, 257805423988, 1230306777661000), (19468, 49216434489, 667770173505060),
  (21104, 352525428062, 1525247118500), (21425, 497081508139, 334067973700260),
  (18505, 557863503922, 199074501704100), (17811, 612537931996, 429233083295040),
  (16472, 260291845066, 334159274776800), (16599, 125519718278, 389418182954220),
  (19455, 253112676345, 439999435688900), (15000, 103464802434, 228834404351140),
  (20029, 473119428749, 469047983635860), (15381, 247009470350, 453505943692440),
  (19964, 578652958398, 707937385680780), (15307, 226515985343, 372350895892300),
  (14705, 336979890389, 668124210705180), (13535, 212334410410, 548677784317500),
  (12950, 561929676688, 1002536039844840), (12682, 295022113262, 349603282613400),
  (13644, 197739547259, 561472937620960), (13013, 151424752315, 562895647021120),
  (14705, 133902715586, 668120759974740), (11353, 623438193885, 13506508003540),
  (13275, 342243595774, 562184292321040), (10867, 528184140482, 281803500860600),
  (11850, 312701832949, 42659819087600), (10472, 273581537999, 278704302385740),
  (11132, 584178807242, 280380791460440), (11764, 258551521265, 843276438481560),
  (11854, 547630686910, 355391152213780), (8490, 191378007528, 1177337681151540),
  (9708, 452957217749, 648977658728800), (8562, 316141186861, 16246663613220),
  (10958, 415771850822, 238889402044920), (8133, 161295625304, 295771589447660),
  (8840, 423294294197, 747752286021600), (8034, 569983564288, 604132756708560),
  (8344, 218273563186, 2387843774780), (7696, 571877332978, 962368827669120),
  (8695, 443542512603, 509215195811580), (8434, 316292250873, 334772597370060),
  (6664, 507517838003, 803109226305840), (8650, 433256981793, 333963210563160),
  (7372, 617831593269, 358334103067380), (5726, 368120120299, 842924126646660),
  (6186, 354165967734, 69215760122680), (5438, 105129689580, 493320844033260)]

/-- `vsop87d_dict.py` 12404-12503. -/
def marsL1_1 : List (ℕ × ℕ × ℕ) := [
  (6108, 166240879939, 652580445396540), (5154, 114703246368, 2844918746780),
  (4850, 529254832907, 668129216370240), (5467, 612511022569, 248741604494780),
  (4866, 310475368803, 552292430740), (6360, 211896608283, 588492684658320),
  (5223, 37446264120, 1283275874170460), (4710, 23326120326, 3602786667740),
  (4954, 244806818502, 509926550511660), (4861, 560505298870, 646792575796160),
  (4706, 2998416568, 721091581849420), (4845, 570115105957, 668115754309680),
  (5496, 201006612503, 52257741809380), (4964, 151006845561, 174442598441520),
  (4443, 31208413867, 1001831416175040), (5381, 18359380473, 294246342329160),
  (4075, 395582108330, 388133535800), (5462, 19274227117, 763294325965020),
  (4110, 159535768711, 723479425624200), (4287, 287635993968, 281092146160520),
  (5276, 222638595594, 312731333126180), (4450, 417005729081, 290690068882300),
  (5144, 566878565669, 2338428698689860), (3844, 226442183160, 269973481931760),
  (3514, 176463961051, 175865307841680), (3351, 266194137496, 492968532198360),
  (4299, 443057446968, 64087760738220), (3140, 175866226873, 959523908922340),
  (3716, 291969220147, 1564368020330980), (3249, 613937134379, 1041998628350760),
  (3077, 256115174488, 706412138562280), (3208, 232519453080, 508503841111500),
  (2930, 127797225349, 57434479833480), (2771, 175664216142, 63989728631400),
  (3325, 258945297384, 211876386037840), (3187, 286646751510, 774060678358880),
  (2780, 43157089331, 582802847164760), (2824, 98500544471, 319104922956520),
  (3016, 186555882509, 704623669800), (3364, 152847138842, 667411130639880),
  (2672, 370855172347, 1002185453375160), (2636, 311790581052, 683664525283380),
  (2672, 167778079449, 1002182002644720), (2563, 377294986894, 292112778282460),
  (2509, 30454165124, 347567750673520), (2400, 96972421975, 331983703120740),
  (2262, 281394314950, 787567186362420), (2395, 296002707485, 668220517446780),
  (2210, 61263930586, 1097355568635000), (2248, 412382007742, 5937386191360),
  (2426, 591508357946, 533135744374080), (2158, 217583545077, 1511398923821520),
  (1941, 547668312685, 1137170468975820), (1903, 511165653855, 106649547719000),
  (2370, 387889340214, 335586489788480), (2299, 115914205086, 332025710730100),
  (1944, 589081872133, 689452394883760), (1843, 307643314617, 332535995551480),
  (1809, 497905218276, 164844675719740), (2136, 191364787635, 896956889691100),
  (2099, 300410255642, 625462666252360), (1915, 355907431740, 376721061757580),
  (1991, 537274107053, 20618554843720), (1685, 549701299817, 26660704172180),
  (1646, 131923405548, 326434635542420), (1732, 181361103995, 53680451209540),
  (1723, 325900379342, 790307341972100), (1564, 575428852012, 336096774609859),
  (1589, 173273563259, 313442687826260), (1690, 243213510013, 312019978426100),
  (1549, 154016426558, 842565083781480), (1536, 588431472627, 2077539549240),
  (1460, 489733072879, 983038901398780), (2023, 594808387002, 1336597282514820),
  (1991, 311613326265, 336138782219220), (1401, 224482184868, 334420285535160),
  (1365, 458006320751, 1081813528691580), (1392, 548931017516, 17067287061920),
  (1360, 307974035205, 612765545055720), (1345, 118653158091, 1458429827312060),
  (1717, 562501515015, 615864743530580), (1408, 182072980335, 333702199804800),
  (1736, 201921900546, 1057540668294180), (1402, 450079374387, 572950644714900),
  (1266, 591088435118, 980853818466140), (1433, 605024653324, 1296430070339100),
  (1223, 82796258263, 41948464387520), (1393, 105117949107, 643849624942560),
  (1272, 150116723856, 843987793181640), (1143, 489747373731, 22041264243880),
  (1183, 352587190041, 668833840040040), (1132, 619236255633, 614442034130420),
  (1154, 223058485970, 895534180290940), (1129, 344264300692, 1017725767953360),
  (1152, 529913300616, 2740155609680), (1274, 458421238440, 624751311552280),
  (1093, 282623332360, 456957454002200), (1303, 44350560735, 8730820453981),
  (1335, 214204457730, 1124368584642080), (1102, 196260837539, 629832832117640)]

/-- `vsop87d_dict.py` 12504-12603. -/
def marsL1_2 : List (ℕ × ℕ × ℕ) := [
  (1066, 289865914321, 1040473381232260), (1027, 479269049654, 391495722503460),
  (1015, 22847818730, 323040610548040), (1041, 373274497451, 1021328554621100),
  (1154, 414326179244, 626174020952440), (1306, 367645557029, 230158581590939),
  (1145, 512292846748, 456246099302120), (1275, 514333847164, 269360159338500),
  (914, 122398892152, 10309277421860), (955, 152875141393, 336906161416760),
  (908, 48223420834, 1335892658845020), (892, 135161136807, 121473501932060),
  (998, 329665881950, 317814579056760), (980, 169212466625, 4371891230500),
  (919, 245445889752, 1391601910964160), (899, 594990531529, 1216800269657460),
  (891, 563297246408, 1002190459040220), (922, 391483430303, 922553927328300),
  (930, 24073004700, 692395345737360), (923, 110396074450, 2942950853600),
  (816, 465198282005, 270782868738660), (791, 608595583868, 238432327072920),
  (820, 480968546763, 53321408344360), (758, 206012386134, 1293585151592320),
  (738, 103564559078, 1431416811304980), (908, 69862047595, 1617337116840440),
  (700, 408788234610, 520235827933520), (829, 201062325398, 986641688066520),
  (887, 604145842617, 1002176996979660), (768, 139532897827, 827382086703240),
  (873, 445446600602, 331673398895200), (673, 302440642752, 103902661079040),
  (660, 283410276989, 10766352393860), (838, 39195370222, 1055152824519400),
  (708, 327560955336, 1898429263000960), (658, 601853128902, 2672489941359840),
  (685, 198132615912, 122896211332220), (595, 10260171285, 11118664228760),
  (563, 159138368358, 239143681773000), (555, 270801962190, 455534744602040),
  (696, 289276686038, 264845482547300), (587, 456017988729, 668024453233140),
  (540, 286002662919, 545937628707820), (530, 564877399946, 603421402008480),
  (520, 20012848836, 1376059871020740), (552, 508766140543, 190343681250120),
  (512, 321411265909, 1108121921028860), (641, 519459033638, 604844111408640),
  (677, 387723948458, 1351787010623340), (534, 23224033336, 5128033786241),
  (670, 369368226469, 333508950239240), (486, 241879628327, 336449086444760),
  (500, 431447859057, 334449376205780), (481, 156481992611, 196483862685400),
  (504, 247456295599, 386318984479360), (523, 65856269237, 85319638175200),
  (481, 12971954679, 6648740891440), (535, 298601678918, 827029774868340),
  (450, 202303462834, 1336243245314700), (448, 559827312967, 14956319713460),
  (519, 275931838722, 350307906283200), (534, 477352933347, 111875579210280),
  (450, 405380888708, 1336246696045140), (439, 483194205477, 311626763099790),
  (567, 567483490268, 22747613278900), (459, 344555998004, 670200024889200),
  (545, 201193901951, 791018696672180), (425, 279854459343, 43371173787680),
  (429, 430113040289, 1685848253293320), (409, 5448009540, 330458456002240),
  (434, 570806855136, 2185082932640), (399, 493233684937, 977910867612540),
  (532, 131038986189, 666044945790720), (398, 531345458361, 1311972110282519),
  (459, 253671963587, 7478159856730), (384, 229906801437, 1231018132361080),
  (467, 512562716972, 159618644228460), (516, 584767782422, 105226838318840),
  (414, 475409582610, 398149003408200), (365, 373271671549, 551875014899180),
  (367, 13506394328, 5689837493560), (459, 15582180531, 938193999378540),
  (392, 215845463651, 398050971301380), (396, 148538591462, 1792491069982040),
  (456, 64517343174, 681628993343500), (358, 587219240658, 360721946842160),
  (490, 65766946042, 337664029337720), (365, 191816243676, 334765866339780),
  (397, 180006148744, 789595987272020), (336, 214687780119, 667763442474780),
  (340, 288185925998, 1725663153634140), (334, 613670038311, 572493569742900),
  (339, 408527025169, 66475604513000), (432, 252188285182, 1845460166491500),
  (336, 422863444521, 669647732458460), (342, 596724705923, 354679797513700),
  (326, 402557052581, 687267311951120), (323, 505444843838, 323751965248120),
  (324, 289151245241, 832967161059700), (321, 625886976298, 1023513637553740)]

/-- `vsop87d_dict.py` 12604-12703. -/
def marsL1_3 : List (ℕ × ℕ × ℕ) := [
  (333, 257725424455, 668481528205140), (356, 627424874986, 867196987044060),
  (319, 505665355586, 3660536530420), (305, 388755666972, 710782304427560),
  (322, 628125601341, 1670658525184800), (334, 315240620873, 1121628429032400),
  (287, 616467002771, 397339616601300), (283, 267802456636, 387741693879520),
  (283, 166293157090, 169216566950240), (276, 294210551399, 341539402526710),
  (275, 53418048945, 1739521973472580), (355, 331406527401, 1002281760116760),
  (311, 150310910269, 666086953400080), (269, 184517097065, 1178049035851620),
  (270, 442425307819, 31084079886840), (275, 358464612058, 12801884333740),
  (275, 222523539580, 301710701004240), (312, 515950395287, 725556965173440),
  (299, 72552273097, 15535308913140), (353, 570047798350, 1646033352952499),
  (267, 597864271046, 949925986200560), (270, 77063210836, 1123657229942000),
  (339, 336092148900, 562536604155940), (315, 233795159922, 328123856478620),
  (247, 371002922076, 737338245462640), (328, 18162415648, 561831980486140),
  (247, 627486009856, 1550861512327440), (292, 14989609091, 1630491313009080),
  (326, 453606745007, 217813772229200), (286, 547710043383, 916864089834740),
  (246, 149838712480, 1511046611986620), (262, 258821936465, 333673109134180),
  (244, 84015413449, 1606218452611680), (245, 37772563756, 1272157209941700),
  (250, 226824758119, 678431762761820), (248, 622740483254, 1314915061136120),
  (255, 493078809107, 1415874771361560), (240, 615843594225, 1980094595622480),
  (249, 547044926479, 440710790388980), (235, 538750866169, 7626607127560),
  (258, 610384464886, 248030249794700), (306, 535546231697, 276626762836500),
  (236, 525670707064, 1317100144068760), (224, 452466909993, 1256615169998280),
  (220, 583694256642, 1393679450513400), (271, 142460945147, 1405460730802600),
  (213, 21127914063, 150528780909299), (267, 516501015011, 320554734666440),
  (212, 426202838353, 654615977336420), (211, 621401684263, 325330422216000),
  (233, 372007597749, 334613535100720), (274, 291986569135, 1071399488132620),
  (201, 336695295492, 668366387410), (223, 308788599159, 40167212175720),
  (234, 224268269202, 11020632121940), (264, 208178742740, 647503930496240),
  (231, 453806384480, 960235263622420), (213, 285452302656, 541565737477320),
  (195, 99589439506, 564219824260920), (259, 464351114, 938095967271720),
  (197, 332573550633, 365700429635640), (228, 533299975472, 356102506913860),
  (193, 125502846507, 660644325483230), (199, 113665869139, 68504405422600),
  (227, 449610509002, 58906482700820), (217, 548740879816, 1059618207843420),
  (192, 426501800444, 333356619000180), (188, 144301618203, 488596640967860),
  (178, 482506490541, 907011887384880), (184, 569637552141, 335124909204960),
  (187, 76021337348, 1669953901514999), (226, 82767654373, 326583082813250),
  (204, 620933387021, 39462588505920), (176, 389567349231, 1002895082710020),
  (174, 368843293982, 73587651353180), (173, 244269377255, 360369635007260),
  (177, 124154853329, 1272255242048520), (184, 477203925989, 28696236112060),
  (171, 467140116008, 2019909495963300), (170, 513753345526, 133205488754080),
  (201, 237863157745, 1627646394262300), (209, 57156268506, 1125079939342160),
  (164, 198441291396, 1001472373309860), (191, 60250751218, 5680326216980),
  (171, 622556266993, 1727740693183380), (166, 105948008727, 1951398359510420),
  (163, 159661610701, 143717561419860), (165, 336308723589, 666597238221460),
  (184, 320554894393, 26308392337280), (212, 310485836003, 403988357492740),
  (176, 341768939214, 946826787725700), (163, 139275730949, 898281066930900),
  (213, 339734274482, 93136308685180), (189, 454004144896, 854297070603500),
  (191, 115555618959, 316993955608060), (155, 141249963094, 2276849660940),
  (153, 514168081601, 15640072050240), (159, 364996617906, 801327974094040),
  (151, 193804487507, 338433133900480), (157, 58554505759, 15894351778320)]

/-- `vsop87d_dict.py` 12704-12803. -/
def marsL1_4 : List (ℕ × ℕ × ℕ) := [
  (173, 272517427493, 280739834325620), (159, 67192454133, 1389214067189380),
  (150, 266045714174, 1900464794940840), (192, 573782632783, 20670073729660),
  (143, 319213280913, 684369148953180), (194, 132358882667, 1940279695281660),
  (143, 236478163720, 1320702930736500), (140, 188800568840, 1176626326451460),
  (144, 69018080218, 1708595866572220), (183, 598085295555, 1336251701710200),
  (161, 292764155222, 585720229960), (162, 607051064413, 670158017279840),
  (192, 86266150575, 281444457995420), (182, 526446797092, 387382651014340),
  (137, 41563614709, 582091492464680), (144, 302314051168, 70898980227659),
  (184, 461314496499, 332997576135000), (131, 348156082643, 36722432896240),
  (173, 309922849765, 1229595422960920), (135, 223311632892, 1566403552270859),
  (147, 195810911154, 573204924442980), (158, 148909254724, 2949181830340),
  (127, 555534080040, 336801398279660), (129, 178002583252, 2274340937951640),
  (132, 281496895377, 2179521409161479), (127, 573090203501, 334019235060619),
  (164, 187613918877, 670967404086740), (123, 361238958991, 2232490505670940),
  (129, 492064308735, 254079130153440), (121, 616922638434, 2020614119633100),
  (122, 579901866314, 185463230563460), (133, 50941998058, 327412501778540),
  (151, 161342807879, 110713880568480), (165, 202795177586, 29048547946960),
  (125, 52719797619, 260473591316800), (144, 568526782434, 882739026987480),
  (126, 380246508251, 76579306444640), (116, 179450246249, 64701083331480),
  (126, 200195272473, 69927114822760), (147, 622619740782, 604034724601740),
  (119, 205840518265, 1512110278521600), (114, 274877091470, 646081221096080),
  (155, 178154091696, 2126552312652020), (146, 337351237411, 186174585263540),
  (118, 407281676691, 41850432280700), (116, 10434606071, 1336238239649640),
  (129, 78419803719, 342792063123960), (152, 32620694442, 344370520091840),
  (110, 56398082486, 66123292678100), (111, 405380946072, 56882187402740),
  (108, 317700641574, 344827595063840), (138, 447698517191, 332638533269820),
  (108, 489922372003, 958812554222260), (114, 480828825403, 665734641565180),
  (108, 410637483972, 1355389797291080), (125, 33573243959, 1884922754997420),
  (115, 318885465852, 240924933984800), (104, 323074163851, 347215438838620),
  (104, 9799515047, 3006551184029820), (112, 164487733528, 1000106188460700),
  (143, 353781769283, 651875821726740), (113, 520979306912, 212587740737920),
  (104, 277582098882, 3813303563780), (133, 588513337452, 583514201864840),
  (105, 411662579413, 667570192909220), (102, 60100887043, 1026456588407340),
  (101, 378636130664, 1004261267559180), (139, 180936944447, 1232342309600880),
  (101, 247217208753, 738049600162720), (130, 253454569863, 1176985369316640),
  (100, 572291104291, 1422709400160), (135, 420237564510, 467266731424060),
  (133, 34413768012, 1648976303806100), (98, 144874403589, 337004193523580),
  (131, 131336606248, 331321087060300), (111, 312463539337, 30927832265580),
  (101, 315369992044, 2415008005134500), (102, 613479937096, 227770737816160),
  (99, 10085261274, 1283987228870540), (134, 291637947295, 5787869600380),
  (104, 330283052330, 339998628861340), (108, 492699760221, 80236392244620),
  (106, 289298330043, 779998064550240), (112, 312761163915, 598906725217280),
  (94, 342562596561, 351019260983280), (102, 94285421551, 320907046501340),
  (96, 79636181668, 302422055704320), (93, 108979608844, 1457718472611980),
  (97, 356551535742, 1442183163698840), (92, 502279637510, 249452959194860),
  (123, 583481108101, 774772033058960), (111, 331406538379, 1161091017538320),
  (118, 500845322960, 158195934828300), (91, 236839307589, 1114059307220220),
  (99, 293269536697, 206793140107260), (124, 315220420912, 2234526037610820),
  (90, 85462370851, 1723275309859360), (125, 154866979468, 143514766175940),
  (113, 457220387105, 1471231711645800), (103, 11158194413, 1104570026390)]

/-- `vsop87d_dict.py` 12804-12903. -/
def marsL1_5 : List (ℕ × ℕ × ℕ) := [
  (113, 241110151532, 524404923920100), (91, 177184730280, 222185663459700),
  (114, 192696878615, 822657883637840), (118, 29322259611, 294598654164060),
  (89, 449875865671, 2194711137270000), (104, 136766858693, 403277002792660),
  (116, 467476277278, 27267295735160), (105, 373327973850, 498905918389720),
  (95, 34653808205, 1351780279593060), (86, 270925448214, 721802936549500),
  (112, 527572276726, 1749936014031540), (114, 337335971932, 293894030494260),
  (90, 26623024836, 948503276800400), (86, 366786582491, 699761672305620),
  (87, 407823608680, 1860649894600020), (117, 561863859185, 1651161386738740),
  (84, 280171829534, 858466166590080), (86, 587459621301, 7360095591520),
  (90, 107789160729, 1072110842832700), (84, 78729386249, 14681168652360),
  (112, 231690430881, 963894074787620), (83, 590575201511, 1685841522263039),
  (82, 431690557700, 937482644678460), (83, 141315204958, 2285459602180400),
  (84, 90320571725, 217102417529120), (82, 159442952041, 994705568153210),
  (82, 44163602941, 478287363546000), (86, 518335054161, 1241073130054860),
  (85, 361669636863, 896597846825920), (97, 535511765140, 499617273089800),
  (85, 236814442737, 106290504853820), (78, 175580354602, 206081785407180),
  (87, 98702744399, 1015690236013480), (98, 35294347682, 2354675362303080),
  (101, 103298143418, 2004015144184979), (88, 56201084357, 1710121113690720),
  (82, 265765057749, 1297955317457600), (85, 107007237991, 1070688133432540),
  (82, 80588396320, 2073583216142559), (92, 487180501294, 938905354078620),
  (78, 322869264518, 1192527409260060), (74, 559171946181, 853585715903420),
  (80, 42260849968, 95628915597060), (82, 147379060963, 1683220104979),
  (73, 376950560688, 885936257569160), (73, 459130182630, 36212113673080),
  (72, 515373872266, 987227408296480), (98, 247740242208, 540143028077160),
  (71, 8395696279, 1584986575174700), (78, 4212599783, 1670312944380180),
  (75, 377172360793, 484590023579280), (72, 201742377451, 132951209026000),
  (76, 30413402871, 7205573335480), (97, 515109318550, 148447270830),
  (70, 33648335823, 2314155838292460), (68, 34828385806, 2004719767854780),
  (78, 142772075938, 1606316484718500), (81, 237498404818, 1670304487984680),
  (69, 366727984195, 1336343002786740), (67, 177194706681, 1845107854656599),
  (73, 41181711796, 3340612426699800), (67, 315946840380, 879998871377800),
  (67, 407602260745, 1044843547097540), (68, 178981361818, 22434479570190),
  (66, 101449371817, 419380880845180), (67, 489249339125, 1208265513417120),
  (81, 61914094848, 94917560896980), (66, 339914635235, 1018430391623160),
  (64, 550528849889, 493679886898440), (64, 182608235490, 307752850332700),
  (69, 248571574894, 1001824685144760), (64, 280447322320, 2080946762464520),
  (68, 97907335430, 671725272007700), (87, 245966764758, 732112213971360),
  (62, 169131771765, 63278373931320), (81, 440575713075, 1670307938715119),
  (63, 363625395496, 2568587280280800), (75, 554907590704, 1687264231663200),
  (61, 33159827734, 1201258229714040), (63, 316314818302, 1167028403729680),
  (62, 23148800541, 731400859271280), (78, 165377731167, 1161443329373220),
  (68, 110866475394, 615505700665400), (68, 445713540461, 917575444534820),
  (81, 366553577428, 1526588651930040), (68, 559792852411, 37737360791580),
  (59, 625689995147, 4142748698317880), (72, 339739853142, 68511136452880),
  (62, 11206359088, 1404749376102520), (57, 431819630987, 9597922721780),
  (70, 598596344975, 653166165626500), (66, 593804470886, 349017562383440),
  (56, 511205539684, 732210246078180), (56, 336788837326, 437963903749020),
  (56, 220908914878, 668827109009760), (57, 457828186723, 1003708975128440),
  (57, 4695703833, 2488957479599160), (65, 270973517401, 1961707636932279),
  (68, 351423189318, 1455689671702380), (56, 594452825242, 2154896236929180)]

/-- `vsop87d_dict.py` 12904-12989. -/
def marsL1_6 : List (ℕ × ℕ × ℕ) := [
  (56, 394541346495, 2566551748340920), (55, 45166365461, 1670299482319620),
  (62, 5229160039, 1406172085502680), (55, 114774475393, 445936821880260),
  (65, 621442820689, 694783189512140), (56, 501712943722, 48597205278960),
  (65, 151615558729, 551163660199100), (72, 490742373357, 2528772379939980),
  (57, 531542907454, 2862833622609960), (55, 402023620788, 400536847182980),
  (54, 551196184505, 4465383324020), (53, 46840976995, 1964552555679060),
  (53, 451539970261, 988677220006400), (69, 337092084432, 4155079098480),
  (72, 466520155151, 668510618875760), (52, 205209599225, 736626890762560),
  (52, 625882226723, 1250925332504720), (60, 33350021257, 1357574880223720),
  (59, 594433755684, 62567019231240), (50, 265624501709, 1012493005431800),
  (68, 292105834159, 1002542770875120), (51, 288289068067, 3960189191244960),
  (69, 109637075565, 2407644458812540), (52, 265290577481, 1565079375031060),
  (52, 328683313010, 675600645196690), (54, 534683925496, 657813207918100),
  (54, 277410607136, 670510329114740), (49, 265700209900, 694430877677240),
  (53, 567436244967, 188308149310240), (48, 568336050679, 864606348025360),
  (51, 11390643300, 1740233328172660), (65, 103099992649, 410640549114620),
  (60, 100159365247, 15189728108520), (50, 384651247899, 4549458142974879),
  (47, 303959709242, 540854382777240), (63, 416165369755, 818651266249260),
  (46, 269368087378, 1654764173406480), (51, 299576014378, 377432416457660),
  (44, 200664763411, 641814093002680), (45, 401853755929, 1940667828817460),
  (58, 314474753550, 402565648092580), (50, 259881540437, 662185099148600),
  (43, 487912487459, 641461781167780), (42, 520400092044, 444775123238460),
  (51, 199634375899, 503277809620220), (43, 128813888865, 664309181776180),
  (40, 96801618560, 1459141182012140), (39, 184985100829, 1000148196070061),
  (39, 569967200167, 610688005506480), (38, 327498743518, 1805292954315780),
  (39, 284167905068, 665277566593180), (44, 57891618854, 1686552876963120),
  (43, 461937364869, 334103250279340), (42, 602555835659, 669186151874940),
  (34, 497734992350, 667058818804980), (33, 139167727215, 482554491639400),
  (35, 602955363644, 356808855948880), (35, 31961016732, 664519698672220),
  (32, 563043769073, 351128529731900), (31, 542978464210, 994557120882380),
  (38, 566461657503, 341687849797540), (30, 98518793666, 2042657109242200),
  (38, 12870962242, 660495878212400), (37, 548374357342, 331118291816379),
  (32, 611106979810, 439288080988820), (31, 318481282781, 334104230982650),
  (34, 232358226279, 907266167112960), (39, 411042361929, 331216323923200),
  (27, 57810321636, 339189276456221), (29, 248646403166, 981565173166220),
  (31, 44265747667, 345179906898740), (27, 613498177783, 336246325602620),
  (27, 621846173482, 522369391980220), (27, 294945830517, 720380227149340),
  (27, 326179855800, 875626980147300), (27, 394385271700, 2395863178523340),
  (33, 377237326006, 1280888030395680), (30, 475096367323, 1590676412668260),
  (31, 88248871193, 334018254357310), (25, 31303295413, 657101853218020),
  (31, 429076841627, 1002085695903120), (26, 222427360058, 1005028646756720),
  (25, 67881122439, 2393785638974100), (31, 172899093511, 1374534623902240),
  (24, 20355912395, 322942578441220), (32, 337195631109, 228475361485960)]

/-- `vsop87d_dict.py` 12303-12990. -/
def marsL1 : List (ℕ × ℕ × ℕ) := List.flatten [
  marsL1_0, marsL1_1, marsL1_2, marsL1_3, marsL1_4, marsL1_5, marsL1_6]

/-- `vsop87d_dict.py` 12992-13091. -/
def marsL2_0 : List (ℕ × ℕ × ℕ) := [
  (58015791, 204979463279, 334061242669980), (54187645, 0, 0),
  (13908426, 245742359888, 668122485339960), (2465104, 280000020929, 1002183728009940),
  (398379, 314118428289, 1336244970679920), (222022, 319436080019, 352311834900),
  (120957, 54325292454, 15542039943420), (61517, 348529427371, 1670306213349900),
  (53638, 354191121461, 334413554504880), (34268, 600188499119, 228123049651060),
  (31665, 414015171788, 19144826611160), (29839, 199870679845, 79629800681640),
  (23168, 433403365928, 24272860397400), (21659, 344532466378, 39814900340820),
  (16044, 611000472441, 214616541647520), (20370, 542191375400, 55356940284240),
  (14927, 609541783564, 318519202726560), (16227, 65678953303, 98032106820),
  (14317, 261851897591, 134986740965880), (14416, 401923812101, 95171840625060),
  (11934, 386122163021, 668474797174860), (15648, 122086121940, 174801641306700),
  (11260, 471822363671, 254431441988340), (13352, 60189008414, 119444701022460),
  (10396, 25038714677, 38289653222320), (9468, 68170713564, 105938193018920),
  (9229, 383209092321, 2004367456019880), (9005, 388271826102, 373876143010800),
  (7501, 546498630412, 175153953141600), (6497, 547773072872, 159259601363280),
  (6311, 234104793674, 309788382272579), (6859, 257522504136, 314916416058820),
  (5870, 114783576679, 711354700080), (6681, 237843690339, 413691043351620),
  (4647, 442957708526, 615153388830500), (4166, 368631477611, 561472937620960),
  (4764, 289684755585, 333349887969900), (4045, 612493402657, 562895647021120),
  (3653, 406679068397, 199074501704100), (3618, 246868561769, 52969096509460),
  (3277, 68101740787, 896245534991020), (3253, 279565340390, 389418182954220),
  (3091, 456861203364, 349603282613400), (2921, 541458945995, 291401423582380),
  (2921, 123050883841, 278704302385740), (2784, 138911141844, 429233083295040),
  (2620, 104061894134, 334159274776800), (2888, 341062353663, 333708930835080),
  (2418, 96341462666, 453505943692440), (2357, 484628239765, 949214631500480),
  (2593, 574934234498, 334059517304760), (2191, 326449527357, 21329909543800),
  (2594, 149510566123, 334062968035200), (2344, 418104725028, 1002536039844840),
  (2630, 467640929857, 358334103067380), (2602, 264911714813, 238889402044920),
  (1830, 97181050149, 158907289528380), (2416, 104749173375, 439999435688900),
  (2386, 427072575550, 707937385680780), (2187, 16036551231, 652580445396540),
  (2344, 1425578204, 469047983635860), (1617, 495614491689, 508862883976680),
  (1633, 110703599922, 1230306777661000), (2126, 48290227706, 270071514038580),
  (1629, 494267977718, 122184856632140), (1504, 11031912519, 295771589447660),
  (1759, 381170701376, 372350895892300), (1401, 385907867678, 628307584999140),
  (1338, 529685392418, 667770173505060), (1763, 251660121293, 281092146160520),
  (1392, 273498041122, 747752286021600), (1431, 297747408389, 648977658728800),
  (1236, 377245965590, 269973481931760), (1234, 188931735265, 668124210705180),
  (1513, 292614134711, 64087760738220), (1234, 614168429036, 668120759974740),
  (1408, 154395721611, 334772597370060), (1038, 582880072933, 493320844033260),
  (1156, 150825464304, 42659819087600), (1362, 417794297520, 2338428698689860),
  (1135, 377506455273, 387030339179440), (916, 381726339298, 509215195811580),
  (853, 382520490669, 334054511639700), (1077, 505062828760, 562184292321040),
  (1074, 381446920470, 355391152213780), (847, 341702696402, 334067973700260),
  (920, 191108056416, 353206069281140), (738, 425786145387, 962368827669120),
  (908, 412911006922, 16246663613220), (647, 310301033831, 723479425624200),
  (800, 520674574801, 8730820453981), (657, 157895580467, 248741604494780),
  (650, 278932995437, 57434479833480), (659, 516655918817, 1283275874170460),
  (712, 579288230676, 333963210563160), (660, 25125103909, 896956889691100),
  (527, 462218528897, 1041998628350760), (607, 384724721085, 548677784317500),
  (500, 466323134619, 683664525283380), (509, 32548381735, 803109226305840)]

/-- `vsop87d_dict.py` 13092-13191. -/
def marsL2_1 : List (ℕ × ℕ × ℕ) := [
  (613, 172250879737, 763294325965020), (516, 137906978509, 774060678358880),
  (469, 131324778369, 787567186362420), (442, 534515135225, 1001831416175040),
  (496, 449656852602, 69215760122680), (544, 144465369200, 1564368020330980),
  (467, 140928870138, 668220517446780), (547, 442021065522, 533135744374080),
  (433, 125048504108, 492968532198360), (409, 380689273098, 668129216370240),
  (403, 157190239310, 612765545055720), (401, 459976459753, 721091581849420),
  (406, 60945437905, 1177337681151540), (367, 97726583907, 604132756708560),
  (361, 13117924893, 63989728631400), (411, 421323421517, 668115754309680),
  (441, 449050100878, 1336597282514820), (474, 518562524130, 230158581590939),
  (334, 221001303889, 1002185453375160), (370, 502880065186, 692395345737360),
  (333, 18229887483, 1002182002644720), (342, 249988747611, 643849624942560),
  (320, 132374476890, 211876386037840), (330, 298027481579, 572950644714900),
  (340, 51409045792, 986641688066520), (283, 403219455446, 895534180290940),
  (281, 333891891806, 983038901398780), (271, 153144358045, 103902661079040),
  (252, 304356928941, 1081813528691580), (270, 222972724035, 582802847164760),
  (259, 424406546278, 689452394883760), (237, 507818982743, 842924126646660),
  (263, 200552313665, 376721061757580), (241, 406396704332, 706412138562280),
  (250, 45422818547, 629832832117640), (240, 194655459341, 668833840040040),
  (209, 3043017984, 391495722503460), (218, 453201818250, 2672489941359840),
  (246, 385272742042, 456246099302120), (254, 119313236635, 843276438481560),
  (231, 170340106651, 294246342329160), (209, 382345999055, 646792575796160),
  (175, 326444055581, 398149003408200), (210, 355052707697, 1057540668294180),
  (162, 595176683701, 31084079886840), (165, 504267055142, 1017725767953360),
  (198, 80464315638, 1511398923821520), (188, 199007233842, 312731333126180),
  (188, 455406803143, 1296430070339100), (163, 214874886056, 1097355568635000),
  (154, 435708331036, 336096774609859), (169, 240504327781, 335586489788480),
  (164, 553875620970, 1617337116840440), (144, 30186831602, 190343681250120),
  (161, 318977924032, 667411130639880), (135, 165570006128, 332535995551480),
  (143, 625825818399, 959523908922340), (158, 614255608340, 827382086703240),
  (170, 598413937993, 332025710730100), (124, 174571336137, 1108121921028860),
  (146, 222851709304, 317814579056760), (126, 502927593525, 347567750673520),
  (123, 499342648375, 1376059871020740), (141, 456735815490, 1002176996979660),
  (118, 542945437851, 1335892658845020), (116, 422080571309, 588492684658320),
  (119, 409962692144, 1002190459040220), (124, 179723243306, 1898429263000960),
  (135, 100085140609, 1845460166491500), (106, 576342924005, 228834404351140),
  (103, 63812052706, 1231018132361080), (100, 437946945260, 980853818466140),
  (104, 401151451052, 1391601910964160), (125, 494825577002, 1055152824519400),
  (98, 591086068785, 1458429827312060), (126, 155752034021, 827029774868340),
  (98, 252869810530, 319104922956520), (95, 550808311620, 331983703120740),
  (108, 167115668669, 1121628429032400), (90, 171281301325, 150528780909299),
  (88, 42472333366, 1137170468975820), (89, 483867235269, 1670658525184800),
  (106, 178998252916, 1002281760116760), (87, 589602688150, 1685848253293320),
  (85, 55423657166, 1336243245314700), (91, 161117547913, 2409327678917520),
  (83, 55328893146, 334420285535160), (83, 106830368571, 336449086444760),
  (84, 622980173043, 336906161416760), (85, 258442459869, 1336246696045140),
  (79, 308636079495, 281803500860600), (77, 153791408869, 545937628707820),
  (75, 334890581175, 907011887384880), (97, 299973987655, 331673398895200),
  (84, 555309637085, 342792063123960), (89, 416432726564, 615864743530580),
  (78, 372375730390, 1317100144068760), (83, 11917380846, 333702199804800),
  (73, 491632010974, 1336238239649640), (76, 452961122356, 70898980227659)]

/-- `vsop87d_dict.py` 13192-13291. -/
def marsL2_2 : List (ℕ × ℕ × ℕ) := [
  (71, 537905772348, 1026456588407340), (84, 193007660929, 946826787725700),
  (73, 528498987702, 484590023579280), (80, 481193020727, 1314915061136120),
  (76, 477873149036, 867196987044060), (69, 86312560839, 1320702930736500),
  (70, 122001285505, 227411694950980), (70, 53977528244, 1311972110282519),
  (70, 9801356525, 143717561419860), (69, 223597403243, 710782304427560),
  (74, 67876411085, 1646033352952499), (68, 54393617190, 1293585151592320),
  (84, 511617356640, 1389214067189380), (78, 527206373031, 85319638175200),
  (65, 474504626032, 614442034130420), (65, 289744951086, 790307341972100),
  (89, 544755326514, 1351787010623340), (73, 381554166604, 350307906283200),
  (66, 47312197978, 398050971301380), (65, 138901912957, 325330422216000),
  (86, 544050231013, 681628993343500), (72, 344697351738, 1415874771361560),
  (86, 450213985772, 1336251701710200), (74, 134701853675, 336138782219220),
  (76, 604002959430, 508503841111500), (65, 7623776004, 509926550511660),
  (66, 209160717290, 1442183163698840), (77, 275740817982, 1940279695281660),
  (59, 361679189501, 732210246078180), (60, 467079289372, 1023513637553740),
  (64, 617220244155, 938193999378540), (66, 35824154106, 725556965173440),
  (59, 452818219212, 949925986200560), (65, 186765892646, 1161091017538320),
  (74, 312276411101, 110713880568480), (60, 135069679183, 1980094595622480),
  (55, 64581579779, 667763442474780), (55, 65206957868, 737338245462640),
  (55, 41979092764, 977910867612540), (74, 385276242820, 276626762836500),
  (56, 249261586879, 564219824260920), (55, 262555306434, 1431416811304980),
  (54, 395212835807, 403277002792660), (55, 51062350773, 1511046611986620),
  (53, 588757767795, 2126552312652020), (51, 599253934388, 2194711137270000),
  (49, 516723732129, 2004719767854780), (67, 153758821512, 938095967271720),
  (57, 534893894346, 1710121113690720), (49, 192678602770, 1272157209941700),
  (46, 231590320480, 1002895082710020), (52, 492463460288, 1630491313009080),
  (50, 169803302925, 922553927328300), (45, 291271003676, 898281066930900),
  (44, 438728556203, 1216800269657460), (47, 444933635857, 687267311951120),
  (43, 213295656057, 2232490505670940), (50, 134759191325, 843987793181640),
  (44, 89037464728, 2075266436247540), (41, 276164156557, 669647732458460),
  (42, 445031185062, 1040473381232260), (44, 320262780268, 2274340937951640),
  (42, 354559408987, 3037635263916660), (42, 82118836477, 2059724396304120),
  (52, 459037852162, 2234526037610820), (42, 379872109079, 2862833622609960),
  (41, 236253602080, 1606218452611680), (50, 148377570574, 604034724601740),
  (41, 533088551342, 76579306444640), (39, 157984331116, 2488957479599160),
  (38, 21571600948, 916864089834740), (38, 347667842127, 106649547719000),
  (52, 81427285458, 963894074787620), (41, 4356010851, 666086953400080),
  (46, 89345529755, 1670304487984680), (44, 85335841824, 1746885519794540),
  (39, 27098916103, 1161443329373220), (36, 393388136028, 3371696506586640),
  (47, 390896957151, 524404923920100), (34, 237310468308, 1021328554621100),
  (34, 485454495742, 1446958851248400), (35, 196497348634, 670200024889200),
  (33, 214488758889, 1336343002786740), (46, 292422266239, 1670307938715119),
  (35, 178692835372, 264845482547300), (33, 424484480826, 858466166590080),
  (43, 609391349922, 666044945790720), (35, 572426647579, 1669953901514999),
  (31, 195254273311, 666597238221460), (28, 588548900893, 1951398359510420),
  (30, 438908125588, 1229595422960920), (29, 625276686131, 1792491069982040),
  (25, 489000247975, 3006551184029820), (26, 243119321236, 651875821726740),
  (28, 397032105354, 440710790388980), (25, 188631752737, 437963903749020),
  (28, 306196380356, 624751311552280), (29, 598057498931, 668024453233140),
  (32, 465556810177, 670158017279840), (26, 76018385758, 386318984479360)]

/-- `vsop87d_dict.py` 13292-13301. -/
def marsL2_3 : List (ℕ × ℕ × ℕ) := [
  (23, 31107548102, 882739026987480), (22, 111553014451, 668481528205140),
  (20, 481193192299, 1550861512327440), (19, 511656455993, 1201258229714040),
  (26, 107254469525, 842565083781480), (21, 268436255141, 626174020952440),
  (22, 215631095909, 333508950239240), (17, 3684125273, 387741693879520),
  (17, 284467149903, 334449376205780), (20, 541519706836, 320554734666440)]

/-- `vsop87d_dict.py` 12991-13302. -/
def marsL2 : List (ℕ × ℕ × ℕ) := List.flatten [
  marsL2_0, marsL2_1, marsL2_2, marsL2_3]

/-- `vsop87d_dict.py` 13304-13403. -/
def marsL3_0 : List (ℕ × ℕ × ℕ) := [
  (1482423, 44434694876, 334061242669980), (662095, 88469178686, 668122485339960),
  (188268, 128799982497, 1002183728009940), (41474, 164850786997, 1336244970679920),
  (22661, 205267665262, 15542039943420), (25994, 0, 0),
  (8024, 199858757687, 1670306213349900), (10454, 158006906385, 352311834900),
  (4900, 282452457966, 24272860397400), (3782, 201914272515, 334413554504880),
  (3176, 459144897927, 318519202726560), (3134, 65044714325, 55356940284240),
  (1684, 553835848782, 95171840625060), (1511, 571795850828, 19144826611160),
  (1448, 45869142895, 79629800681640), (1442, 234368495577, 2004367456019880),
  (1302, 536284013048, 98032106820), (1169, 414601161433, 134986740965880),
  (1133, 238180830662, 668474797174860), (1037, 176892750558, 38289653222320),
  (894, 533688328934, 119444701022460), (807, 274798886181, 174801641306700),
  (640, 610665147849, 349603282613400), (558, 185212342360, 39814900340820),
  (567, 585922384979, 711354700080), (647, 317645475605, 358334103067380),
  (452, 598109989317, 278704302385740), (508, 101139298015, 314916416058820),
  (519, 493376176788, 652580445396540), (405, 127295444059, 228123049651060),
  (399, 232888685659, 373876143010800), (472, 84411483892, 413691043351620),
  (333, 542704539231, 105938193018920), (313, 370599897858, 309788382272579),
  (281, 574581724084, 334159274776800), (287, 269304799864, 1002536039844840),
  (237, 568519881994, 453505943692440), (215, 249494803822, 199074501704100),
  (260, 267996877129, 2338428698689860), (269, 110390153866, 238889402044920),
  (186, 486408411823, 295771589447660), (176, 386618588087, 159259601363280),
  (177, 85374318134, 389418182954220), (191, 458805692093, 333708930835080),
  (185, 580899316550, 439999435688900), (143, 115592612974, 747752286021600),
  (173, 270622920014, 707937385680780), (146, 137569151302, 648977658728800),
  (121, 324333934982, 949214631500480), (116, 571639819530, 1230306777661000),
  (111, 269566947038, 615153388830500), (103, 353587741373, 692395345737360),
  (97, 523712981002, 896245534991020), (89, 5951324220, 612765545055720),
  (93, 529818155587, 986641688066520), (84, 568544044325, 429233083295040),
  (91, 616223680965, 668220517446780), (81, 432723330620, 493320844033260),
  (77, 563189824170, 158907289528380), (102, 626937663026, 334772597370060),
  (76, 305724276091, 1336597282514820), (63, 312770931753, 1041998628350760),
  (62, 145647168723, 723479425624200), (69, 482266605869, 667770173505060),
  (64, 173713448446, 387030339179440), (58, 485723088492, 548677784317500),
  (58, 609849516790, 787567186362420), (63, 414716431158, 334059517304760),
  (65, 617932665318, 334062968035200), (57, 148905992502, 572950644714900),
  (60, 608710604997, 774060678358880), (56, 196253427165, 355391152213780),
  (59, 89874385953, 333963210563160), (53, 304776975379, 2672489941359840),
  (61, 363390789623, 1283275874170460), (59, 22989746040, 668124210705180),
  (53, 397996929188, 509215195811580), (59, 448255178273, 668120759974740),
  (45, 388055745121, 1026456588407340), (58, 485371375265, 562184292321040),
  (49, 403623343126, 1617337116840440), (61, 290942510134, 533135744374080),
  (43, 180990718340, 983038901398780), (44, 410828944542, 469047983635860),
  (44, 349332765553, 1376059871020740), (48, 181207342615, 372350895892300),
  (41, 159906754314, 1081813528691580), (41, 205797417369, 668129216370240),
  (38, 338619280993, 1670658525184800), (41, 253336616026, 668115754309680),
  (41, 179026132252, 334054511639700), (50, 470324784090, 827382086703240),
  (37, 337898394417, 3006551184029820), (39, 265566008587, 689452394883760),
  (35, 258475025674, 962368827669120), (37, 607442797404, 492968532198360),
  (42, 304642561189, 1296430070339100), (37, 523784488646, 629832832117640),
  (43, 617835198533, 1564368020330980), (34, 244806511268, 721091581849420)]

/-- `vsop87d_dict.py` 13404-13432. -/
def marsL3_1 : List (ℕ × ℕ × ℕ) := [
  (38, 26295105909, 1002281760116760), (28, 74281728305, 1002185453375160),
  (28, 499536302577, 1002182002644720), (34, 504118058624, 896956889691100),
  (25, 259849002421, 895534180290940), (30, 114354290938, 214616541647520),
  (27, 26980783576, 1898429263000960), (25, 39810308575, 668833840040040),
  (24, 564558695441, 1320702930736500), (27, 624398988438, 508862883976680),
  (24, 25455613132, 1108121921028860), (23, 53673547304, 333349887969900),
  (24, 180155161992, 667411130639880), (29, 439953507920, 1001831416175040),
  (23, 291040060956, 1055152824519400), (22, 120895727897, 52969096509460),
  (26, 8254324904, 763294325965020), (26, 181668969835, 628307584999140),
  (21, 67232850824, 683664525283380), (17, 519518401928, 291401423582380),
  (17, 516488977775, 803109226305840), (21, 362973082412, 588492684658320),
  (18, 506870872024, 254431441988340), (14, 250522181917, 706412138562280),
  (17, 41835598950, 946826787725700), (11, 221363101654, 643849624942560),
  (13, 138424462832, 334067973700260), (12, 328248484262, 867196987044060),
  (14, 23027665815, 376721061757580)]

/-- `vsop87d_dict.py` 13303-13433. -/
def marsL3 : List (ℕ × ℕ × ℕ) := List.flatten [
  marsL3_0, marsL3_1]

/-- `vsop87d_dict.py` 13435-13470. -/
def marsL4_0 : List (ℕ × ℕ × ℕ) := [
  (113969, 314159265359, 0), (28725, 563662412043, 668122485339960),
  (24447, 513868481454, 334061242669980), (11187, 603161074431, 1002183728009940),
  (3190, 356267988299, 15542039943420), (3252, 13228350651, 1336244970679920),
  (787, 49340783377, 1670306213349900), (776, 131734531594, 24272860397400),
  (494, 306356214498, 318519202726560), (374, 215785846355, 55356940284240),
  (331, 623159792887, 352311834900), (197, 44350153983, 334413554504880),
  (181, 81531283571, 2004367456019880), (168, 373509781785, 349603282613400),
  (86, 79259553758, 668474797174860), (115, 166898531261, 358334103067380),
  (92, 340530361815, 652580445396540), (64, 447443580658, 278704302385740),
  (45, 517216217058, 309788382272579), (41, 121875027733, 2338428698689860),
  (36, 553975653407, 314916416058820), (39, 540966345885, 413691043351620),
  (28, 485378781404, 612765545055720), (27, 42811091036, 373876143010800),
  (32, 122337093927, 1002536039844840), (25, 156348878811, 2672489941359840),
  (29, 240178626971, 389418182954220), (23, 416371253947, 334159274776800),
  (22, 598429191667, 747752286021600), (19, 203228980685, 692395345737360),
  (20, 379275573433, 986641688066520), (21, 427532111122, 683664525283380),
  (15, 156315497374, 1336597282514820), (11, 133261955275, 228123049651060),
  (9, 615390464542, 648977658728800), (7, 423894194106, 453505943692440)]

/-- `vsop87d_dict.py` 13434-13471. -/
def marsL4 : List (ℕ × ℕ × ℕ) := marsL4_0

/-- `vsop87d_dict.py` 13473-13487. -/
def marsL5_0 : List (ℕ × ℕ × ℕ) := [
  (710, 404089996521, 668122485339960), (868, 314159265359, 0),
  (510, 449214901625, 1002183728009940), (357, 507435505061, 15542039943420),
  (223, 351351884241, 334061242669980), (199, 485313666795, 1336244970679920),
  (100, 609089356066, 24272860397400), (69, 519017483537, 1670306213349900),
  (64, 155783055571, 318519202726560), (35, 368246171643, 55356940284240),
  (25, 522079788019, 349603282613400), (24, 17861991485, 358334103067380),
  (19, 559184714460, 2004367456019880), (14, 595565787085, 2338428698689860),
  (12, 193859256739, 652580445396540)]

/-- `vsop87d_dict.py` 13472-13488. -/
def marsL5 : List (ℕ × ℕ × ℕ) := marsL5_0

/-- `vsop87d_dict.py` 11083-13489 `_planets[("Mars", "L")]`. -/
def marsL : List (List (ℕ × ℕ × ℕ)) :=
  [marsL0, marsL1, marsL2, marsL3, marsL4, marsL5]

/-- `vsop87d_dict.py` 13492-13591. -/
def marsB0_0 : List (ℕ × ℕ × ℕ) := [
  (3197134986, 376832042432, 334061242669980), (298033234, 410616996243, 668122485339960),
  (289104742, 0, 0), (31365538, 444651052853, 1002183728009940),
  (3484100, 478812547889, 1336244970679920), (442999, 565233015876, 333708930835080),
  (443401, 502642620491, 334413554504880), (399109, 513056814700, 1670306213349900),
  (292506, 379290644595, 228123049651060), (181982, 613648011704, 615153388830500),
  (163159, 426399626634, 52969096509460), (159678, 223194610246, 105938193018920),
  (139323, 241796344238, 896245534991020), (149297, 216501209917, 562184292321040),
  (142686, 118215016110, 334059517304760), (142685, 321292180820, 334062968035200),
  (82544, 536667872319, 668474797174860), (73640, 509187524843, 39814900340820),
  (72660, 553775710437, 628307584999140), (86377, 574429648412, 373876143010800),
  (83276, 598866315739, 667770173505060), (60116, 367960808826, 79629800681640),
  (63111, 73049113369, 588492684658320), (62338, 485071999184, 294246342329160),
  (46951, 554339723804, 334054511639700), (46953, 513486627234, 334067973700260),
  (46630, 547361665459, 2004367456019880), (45588, 213262507507, 281092146160520),
  (41269, 20003189001, 949214631500480), (47199, 452184736343, 314916416058820),
  (38540, 408008443274, 413691043351620), (33069, 406581918329, 175153953141600),
  (29694, 592218297386, 353206069281140), (32736, 262071056958, 291401423582380),
  (29521, 275342566734, 1230306777661000), (28169, 206282533993, 548677784317500),
  (28618, 494710527914, 387030339179440), (26603, 355085844020, 668124210705180),
  (26603, 152008675291, 668120759974740), (23336, 227624532707, 158907289528380),
  (26052, 260064548916, 439999435688900), (22637, 227507466406, 119444701022460),
  (18887, 604416196149, 707937385680780), (14846, 341358603159, 508862883976680),
  (19947, 267365368471, 843276438481560), (14682, 589211938785, 962368827669120),
  (14152, 242512744356, 333349887969900), (13310, 262839773036, 42659819087600),
  (14008, 167425558329, 625462666252360), (15104, 281013535571, 349603282613400),
  (13011, 570759434129, 1002536039844840), (12080, 151804981987, 318519202726560),
  (13183, 4521207632, 1001831416175040), (11554, 557418971820, 19144826611160),
  (11196, 55829576311, 509215195811580), (11530, 213314819584, 1177337681151540),
  (10435, 572414012635, 646792575796160), (9846, 86942245495, 159259601363280),
  (9761, 109342288660, 254431441988340), (8754, 547281660412, 668129216370240),
  (8937, 483790385610, 648977658728800), (8652, 472118876809, 21329909543800),
  (8797, 286597575792, 334159274776800), (8384, 265895230037, 453505943692440),
  (8213, 482608134710, 355391152213780), (8799, 152910882795, 333963210563160),
  (8103, 100994045172, 922553927328300), (8754, 588131160438, 668115754309680),
  (7209, 441679446871, 747752286021600), (8560, 479003986337, 469047983635860),
  (6087, 189071507516, 959523908922340), (6974, 53246284561, 1283275874170460),
  (5584, 618909308524, 429233083295040), (5038, 606393121994, 721091581849420),
  (5126, 11856805000, 456246099302120), (4863, 133051301524, 389418182954220),
  (5592, 397792577165, 312731333126180), (4965, 574589127183, 199074501704100),
  (5530, 581711987294, 2338428698689860), (4184, 388899446923, 1002185453375160),
  (4184, 185821885540, 1002182002644720), (4685, 111750235736, 331983703120740),
  (3954, 265573703692, 492968532198360), (5174, 362343554596, 270071514038580),
  (4639, 614089337232, 711354700080), (4686, 327731664264, 336138782219220),
  (4999, 309121636067, 1564368020330980), (3919, 296552252075, 774060678358880),
  (3361, 185016770821, 295771589447660), (4246, 419639278630, 214616541647520),
  (4101, 622532797325, 1021328554621100), (3124, 8536218671, 1041998628350760),
  (3079, 241163389513, 334420285535160), (3093, 198041729732, 333702199804800),
  (3044, 438894419912, 122184856632140), (2879, 293292197885, 278704302385740),
  (3372, 445558202843, 667411130639880), (2510, 406249795775, 687267311951120),
  (2616, 123659420897, 493320844033260), (3011, 433965766608, 238889402044920)]

/-- `vsop87d_dict.py` 13592-13691. -/
def marsB0_1 : List (ℕ × ℕ × ℕ) := [
  (3094, 240385309455, 211876386037840), (2516, 230275910483, 372350895892300),
  (2192, 168877598700, 63989728631400), (2157, 607600403318, 980853818466140),
  (2686, 238172448359, 1511398923821520), (2156, 287771528495, 604132756708560),
  (2495, 387395320804, 790307341972100), (2253, 47469626036, 347567750673520),
  (2443, 302632351975, 376721061757580), (1937, 38000997629, 1335892658845020),
  (2213, 391982326360, 320554734666440), (2385, 623883456815, 1296430070339100),
  (1806, 238408432339, 1124368584642080), (2265, 185773885180, 652580445396540),
  (1642, 186812936557, 668024453233140), (1616, 339954231101, 842924126646660),
  (1646, 73261192032, 227411694950980), (1910, 604319894051, 1336597282514820),
  (1492, 299360929050, 787567186362420), (1567, 176860259924, 38289653222320),
  (1459, 140571286543, 1458429827312060), (1527, 579343536555, 689452394883760),
  (1409, 517099876287, 983038901398780), (1665, 360183854165, 228834404351140),
  (1616, 219447775480, 882739026987480), (1746, 10485504333, 358334103067380),
  (1637, 320410489018, 668220517446780), (1269, 202253791623, 15542039943420),
  (1507, 580795976424, 174801641306700), (1296, 292899986522, 938193999378540),
  (1291, 298932404463, 683664525283380), (1377, 580980821450, 1002190459040220),
  (1357, 32856318286, 403277002792660), (1377, 621830533138, 1002176996979660),
  (1227, 220421067322, 1293585151592320), (1080, 475502761725, 1081813528691580),
  (1016, 133950348904, 1256615169998280), (1083, 87622049125, 1617337116840440),
  (957, 529505019432, 106649547719000), (1035, 244286811558, 105226838318840),
  (1153, 473786864168, 803109226305840), (1042, 173541825729, 336906161416760),
  (899, 187265511538, 307752850332700), (892, 251347636401, 360369635007260),
  (904, 27361540197, 332535995551480), (883, 546537936740, 561472937620960),
  (949, 4595688771, 706412138562280), (872, 361205859852, 670200024889200),
  (842, 561713543212, 895534180290940), (842, 57536275896, 319104922956520),
  (904, 411832249537, 335586489788480), (1044, 265889542110, 331216323923200),
  (807, 226443259820, 896956889691100), (1046, 611317298058, 533135744374080),
  (933, 82551054416, 350307906283200), (946, 192368414869, 562895647021120),
  (978, 455697167317, 309788382272579), (846, 465096242323, 643849624942560),
  (901, 146788821922, 666044945790720), (739, 497716008834, 1001472373309860),
  (762, 342576079312, 1898429263000960), (934, 35014113954, 326434635542420),
  (894, 34991139502, 1055152824519400), (665, 605561837558, 763294325965020),
  (605, 468480399923, 572950644714900), (593, 297207045977, 317814579056760),
  (617, 219529512598, 1336243245314700), (579, 332303439858, 1108121921028860),
  (579, 231217959727, 667763442474780), (572, 427984088783, 654615977336420),
  (584, 451625727923, 164844675719740), (626, 460715188203, 248741604494780),
  (649, 217894376907, 629832832117640), (617, 422635718375, 1336246696045140),
  (550, 311161314141, 614442034130420), (551, 327081871281, 612765545055720),
  (536, 18973312148, 334613535100720), (557, 613686769377, 2672489941359840),
  (571, 565341463660, 292112778282460), (552, 575724124958, 14956319713460),
  (638, 449647258906, 352311834900), (552, 107795672495, 53680451209540),
  (537, 419207200801, 333508950239240), (567, 262806466971, 264845482547300),
  (641, 324534699403, 334772597370060), (546, 276744357149, 545937628707820),
  (556, 498610303145, 653166165626500), (578, 274445077242, 668481528205140),
  (613, 301718810256, 827029774868340), (558, 589236366633, 615864743530580),
  (489, 459082197201, 52257741809380), (445, 364293918046, 1071399488132620),
  (539, 59284523316, 55356940284240), (434, 199641894213, 2608790314157420),
  (459, 484216944554, 175865307841680), (423, 377854586358, 668833840040040),
  (421, 310245838137, 832967161059700), (421, 443540354818, 10309277421860),
  (502, 303141512630, 336096774609859), (422, 599158563064, 24272860397400)]

/-- `vsop87d_dict.py` 13692-13791. -/
def marsB0_2 : List (ℕ × ℕ × ℕ) := [
  (401, 206012045711, 398050971301380), (410, 585255605682, 335124909204960),
  (375, 250803340920, 678431762761820), (407, 30117328390, 1630491313009080),
  (507, 135016417800, 332025710730100), (385, 106248122739, 723479425624200),
  (519, 461705823333, 737338245462640), (401, 51161484292, 1708595866572220),
  (371, 41707432281, 1376059871020740), (476, 81142637639, 681628993343500),
  (348, 336497054127, 843987793181640), (366, 605186692577, 360721946842160),
  (402, 267375675473, 1845460166491500), (439, 41122589061, 1040473381232260),
  (412, 481039654306, 332997576135000), (413, 21011211689, 1314915061136120),
  (363, 219017574725, 986641688066520), (337, 546398740226, 660495878212400),
  (340, 173392662280, 169216566950240), (344, 358310197017, 710782304427560),
  (420, 277274750272, 290690068882300), (335, 202339633221, 333356619000180),
  (336, 278173647754, 498905918389720), (354, 541265456299, 95171840625060),
  (328, 43464916253, 692395345737360), (422, 157591737080, 827382086703240),
  (324, 499165215532, 1137170468975820), (351, 460766539695, 307400538497800),
  (333, 486991808664, 386318984479360), (319, 144510282827, 1176985369316640),
  (296, 525637576704, 7626607127560), (349, 162483962938, 1792491069982040),
  (293, 220643287367, 334765866339780), (315, 455227306770, 582802847164760),
  (280, 142134291540, 660644325483230), (336, 156854533505, 158195934828300),
  (343, 27605726543, 1097355568635000), (271, 8314924409, 1023513637553740),
  (280, 76436434398, 85319638175200), (317, 491466081381, 344370520091840),
  (257, 15709629188, 1216800269657460), (237, 313380421805, 7478159856730),
  (271, 183008759256, 339998628861340), (233, 320163702613, 1017725767953360),
  (312, 28436027987, 1374534623902240), (273, 453535816659, 334449376205780),
  (235, 67980074869, 1739521973472580), (262, 384436620806, 916864089834740),
  (271, 494509131052, 69215760122680), (254, 219491751584, 328123856478620),
  (220, 165400798925, 354679797513700), (283, 557884389098, 397339616601300),
  (229, 593153003758, 336449086444760), (223, 482744958322, 977910867612540),
  (222, 71788606092, 1669953901514999), (219, 9831940529, 1670658525184800),
  (221, 166596576205, 1057540668294180), (259, 110208840059, 174442598441520),
  (243, 152425310144, 1405460730802600), (273, 612932898811, 333673109134180),
  (232, 473422268172, 331673398895200), (210, 597305256642, 41948464387520),
  (213, 535378111313, 159618644228460), (197, 332400761027, 508503841111500),
  (193, 90522037315, 1431416811304980), (192, 263243342989, 43371173787680),
  (188, 114983778034, 1389214067189380), (200, 479567916236, 626174020952440),
  (204, 232272167710, 1391601910964160), (191, 508454560792, 217813772229200),
  (191, 588821293073, 334019235060619), (236, 97341490472, 323040610548040),
  (200, 360041329896, 330458456002240), (165, 291701234796, 341539402526710),
  (191, 477647338120, 334103250279340), (174, 220549134205, 1002085695903120),
  (161, 264795288862, 330400706139560), (173, 354115285115, 1002281760116760),
  (154, 245916882835, 1272255242048520), (160, 173968020026, 337721779200400),
  (196, 78013533938, 337664029337720), (153, 27328628499, 1336238239649640),
  (190, 265143864216, 365700429635640), (172, 571092117488, 238432327072920),
  (157, 100235389487, 320907046501340), (150, 339592748537, 347215438838620),
  (165, 586551673354, 280380791460440), (154, 32136196834, 666597238221460),
  (178, 334059693754, 1121628429032400), (192, 66079944629, 313442687826260),
  (161, 287915391245, 439288080988820), (159, 372249746113, 1351787010623340),
  (168, 55746622745, 11020632121940), (158, 567248197213, 440710790388980),
  (161, 176789928464, 670967404086740), (158, 550643845256, 1317100144068760),
  (129, 121297315367, 1951398359510420), (173, 17070148373, 302422055704320),
  (132, 425407099272, 1685848253293320), (125, 288510294667, 1725663153634140)]

/-- `vsop87d_dict.py` 13792-13891. -/
def marsB0_3 : List (ℕ × ℕ × ℕ) := [
  (124, 259724598646, 1231018132361080), (170, 405945259741, 281803500860600),
  (121, 523997785185, 987227408296480), (142, 302798835989, 351128529731900),
  (165, 253171951288, 1627646394262300), (153, 614783670557, 1336251701710200),
  (119, 415694365082, 376009707057500), (120, 64287725481, 445936821880260),
  (130, 495002309460, 1355389797291080), (120, 17087854222, 867196987044060),
  (112, 16822264326, 13506508003540), (137, 334809361979, 334104230982650),
  (125, 132195559043, 134986740965880), (111, 314151030451, 1352491634293140),
  (119, 595361348050, 1229595422960920), (131, 509769375731, 1415874771361560),
  (141, 137128440708, 316993955608060), (112, 335831868034, 598906725217280),
  (104, 500696041032, 1311972110282519), (110, 523317664736, 137577379984580),
  (105, 272692368303, 116247470440780), (104, 173769165705, 222185663459700),
  (137, 104576950390, 334018254357310), (106, 613415161313, 16246663613220),
  (119, 263312561442, 732112213971360), (105, 309551802365, 2061801935853360),
  (99, 425515697974, 2353970738633280), (108, 101854506729, 326583082813250),
  (119, 407277528003, 1018430391623160), (96, 181122023425, 1000106188460700),
  (93, 358905885066, 509926550511660), (95, 494756054764, 398149003408200),
  (94, 537493368020, 1335533615979840), (95, 13037485775, 1550861512327440),
  (103, 43484130196, 186174585263540), (90, 376370412628, 2232490505670940),
  (91, 395041101283, 1004261267559180), (106, 430186500383, 64087760738220),
  (109, 618873749839, 147886657406440), (88, 179608901332, 624751311552280),
  (102, 558754073056, 276626762836500), (110, 94707767481, 327412501778540),
  (84, 445487801845, 669647732458460), (85, 274791518135, 340709983561420),
  (87, 451145821088, 22041264243880), (101, 594930983227, 842565083781480),
  (82, 1837230371, 949925986200560), (80, 42550989980, 1805292954315780),
  (83, 296589752213, 665277566593180), (80, 461446168762, 391495722503460),
  (79, 150228636499, 211165031337760), (89, 352977975496, 948503276800400),
  (86, 41976545794, 95628915597060), (88, 546013317934, 1646033352952499),
  (91, 209965252231, 94917560896980), (104, 172206104768, 329689351439480),
  (103, 125691413032, 338433133900480), (84, 578647729498, 551875014899180),
  (79, 179313426804, 3813303563780), (73, 10667695992, 2982278323632420),
  (87, 211654357529, 345081874791920), (72, 389476829327, 938095967271720),
  (75, 259340305340, 196483862685400), (98, 401577665825, 684369148953180),
  (74, 532032289064, 1176626326451460), (68, 4775525953, 212587740737920),
  (69, 607427052412, 2648217080962440), (69, 205018999200, 2942463423291600),
  (84, 16960920719, 26308392337280), (68, 503013252197, 907011887384880),
  (76, 200296087293, 22434479570190), (78, 217362706851, 3022093223973240),
  (66, 385497672006, 1940667828817460), (66, 570059718737, 3356154466643220),
  (67, 16600936321, 2274340937951640), (65, 465423392949, 280739834325620),
  (69, 334387224268, 1167028403729680), (87, 497838021880, 111875579210280),
  (63, 18907106180, 3006551184029820), (64, 461909647015, 988677220006400),
  (73, 93706647938, 2073583216142559), (60, 583757395809, 864606348025360),
  (62, 481389895867, 2019909495963300), (59, 500150762621, 641461781167780),
  (68, 384252763135, 657101853218020), (62, 281689634717, 694430877677240),
  (65, 449078808776, 63278373931320), (58, 564889513615, 994557120882380),
  (70, 251605694403, 963894074787620), (57, 328105791201, 20618554843720),
  (57, 297448265957, 2179521409161479), (56, 223565630779, 2099539296644940),
  (57, 188614831237, 1845107854656599), (71, 482445647307, 854297070603500),
  (61, 365945073900, 1442183163698840), (56, 313789031275, 879998871377800),
  (57, 489927831599, 960235263622420), (65, 337109873211, 1161091017538320),
  (67, 192945007459, 2126552312652020), (55, 195164531764, 958812554222260)]

/-- `vsop87d_dict.py` 13892-13932. -/
def marsB0_4 : List (ℕ × ℕ × ℕ) := [
  (57, 282240075154, 1012493005431800), (57, 610407356832, 1980094595622480),
  (55, 520976473824, 323751965248120), (57, 412235760406, 1002895082710020),
  (55, 141700952855, 1590676412668260), (53, 216328741039, 641814093002680),
  (60, 264683840328, 1001824685144760), (68, 536539876845, 122896211332220),
  (51, 573824213507, 604844111408640), (53, 31937174553, 1272157209941700),
  (51, 6312524105, 2020614119633100), (49, 453401402385, 667570192909220),
  (51, 115475560534, 1015690236013480), (64, 456332268770, 1670307938715119),
  (60, 361007443614, 946826787725700), (59, 308413561767, 1002542770875120),
  (64, 253229538141, 1670304487984680), (56, 331988072467, 651875821726740),
  (47, 144559165677, 664309181776180), (50, 192342238827, 1161443329373220),
  (47, 403794177027, 2395863178523340), (46, 370927352724, 885936257569160),
  (60, 255506470511, 1178049035851620), (47, 169256878711, 666086953400080),
  (44, 609481217162, 646081221096080), (44, 263040622140, 1393679450513400),
  (53, 77878945764, 1686552876963120), (49, 183368544550, 1765478053974960),
  (48, 52828042378, 668674777770700), (42, 430347553493, 906554812412880),
  (42, 571964550673, 720380227149340), (41, 98427208931, 2042657109242200),
  (51, 354335413699, 2059724396304120), (41, 21219617682, 731400859271280),
  (38, 253074981011, 1320702930736500), (39, 515577369902, 667058818804980),
  (51, 325271478667, 779998064550240), (49, 77060706107, 1710121113690720),
  (38, 606684699984, 938905354078620), (43, 51983815091, 1648976303806100),
  (36, 84102576439, 2393785638974100)]

/-- `vsop87d_dict.py` 13491-13933. -/
def marsB0 : List (ℕ × ℕ × ℕ) := List.flatten [
  marsB0_0, marsB0_1, marsB0_2, marsB0_3, marsB0_4]

/-- `vsop87d_dict.py` 13935-14034. -/
def marsB1_0 : List (ℕ × ℕ × ℕ) := [
  (350068845, 536847836211, 334061242669980), (14116030, 314159265359, 0),
  (9670755, 547877786506, 668122485339960), (1471918, 320205766795, 1002183728009940),
  (425864, 340843812875, 1336244970679920), (102039, 77617286189, 333708930835080),
  (78848, 371768293865, 1670306213349900), (26171, 248293558065, 228123049651060),
  (32708, 345803723682, 562184292321040), (20712, 144120802297, 615153388830500),
  (18294, 603102943125, 52969096509460), (15680, 393075566599, 896245534991020),
  (16975, 481115186866, 334413554504880), (13067, 97324736181, 667770173505060),
  (15622, 278241383265, 334059517304760), (15622, 481318636318, 334062968035200),
  (13771, 167983063909, 353206069281140), (12711, 404546734935, 2004367456019880),
  (14268, 24640247719, 294246342329160), (12493, 225620513522, 588492684658320),
  (8800, 34079528233, 39814900340820), (8637, 175213704409, 254431441988340),
  (8903, 595437916504, 281092146160520), (8102, 84279830287, 628307584999140),
  (9250, 435071778619, 349603282613400), (8085, 429614034209, 668474797174860),
  (5811, 355479498415, 509215195811580), (5864, 369652093329, 548677784317500),
  (5618, 3475872145, 318519202726560), (5148, 85886443528, 334054511639700),
  (5145, 45169791514, 334067973700260), (4898, 412922007874, 105938193018920),
  (3471, 507253485267, 508862883976680), (3102, 311487063736, 333963210563160),
  (3013, 100910437496, 291401423582380), (3171, 124730004776, 373876143010800),
  (3194, 286899092087, 175153953141600), (2304, 138460565999, 387030339179440),
  (2233, 291238180064, 389418182954220), (2792, 427117916474, 843276438481560),
  (2431, 14615904873, 469047983635860), (2577, 278651098185, 625462666252360),
  (1996, 151200589223, 429233083295040), (1860, 515222219319, 79629800681640),
  (2014, 548528849094, 312731333126180), (1922, 437668623732, 2338428698689860),
  (2248, 446756441051, 1002536039844840), (1782, 270229954651, 413691043351620),
  (1621, 226742355334, 314916416058820), (1452, 153948251192, 949214631500480),
  (1373, 320232312108, 214616541647520), (1332, 567966837010, 159259601363280),
  (1378, 412087865376, 372350895892300), (1215, 33914405698, 667411130639880),
  (1168, 352407129935, 1177337681151540), (1179, 615475441355, 21329909543800),
  (1173, 126036608440, 334159274776800), (1211, 97241747335, 646792575796160),
  (1204, 95200561837, 1001831416175040), (1107, 144142157852, 278704302385740),
  (1194, 84501638145, 119444701022460), (1043, 398123209815, 1230306777661000),
  (1029, 121951732572, 453505943692440), (939, 299716248257, 747752286021600),
  (1303, 112409937702, 439999435688900), (1032, 426592917807, 199074501704100),
  (1230, 37904885593, 652580445396540), (989, 237220445455, 922553927328300),
  (946, 314940196742, 648977658728800), (1013, 590131661122, 309788382272579),
  (913, 286098924372, 238889402044920), (954, 490448639106, 358334103067380),
  (866, 492421595837, 668124210705180), (797, 453307543814, 707937385680780),
  (866, 289344915945, 668120759974740), (659, 33901474348, 295771589447660),
  (670, 323650405278, 959523908922340), (782, 156739177814, 333349887969900),
  (641, 446918721250, 683664525283380), (611, 397393774087, 604132756708560),
  (738, 378715624780, 456246099302120), (558, 292718433901, 158907289528380),
  (513, 96852780537, 962368827669120), (508, 407262127921, 711354700080),
  (512, 153960708348, 774060678358880), (481, 351023225206, 15542039943420),
  (528, 606190721770, 493320844033260), (558, 209491968451, 228834404351140),
  (445, 342439886280, 668024453233140), (482, 473460866232, 1336597282514820),
  (534, 488536251621, 336138782219220), (520, 619100285186, 643849624942560),
  (441, 182408206251, 332535995551480), (487, 272879191049, 331983703120740),
  (417, 448716253276, 790307341972100), (430, 62845892205, 561472937620960),
  (395, 489021898045, 1041998628350760), (380, 191138845097, 355391152213780),
  (358, 421584518245, 42659819087600), (409, 453421956625, 336096774609859)]

/-- `vsop87d_dict.py` 14035-14134. -/
def marsB1_1 : List (ℕ × ℕ × ℕ) := [
  (426, 547172830908, 320554734666440), (330, 100078638665, 895534180290940),
  (322, 242607399606, 227411694950980), (316, 322064089430, 122184856632140),
  (312, 366073476074, 333702199804800), (310, 409100416919, 334420285535160),
  (295, 287635162282, 721091581849420), (329, 564440592793, 1283275874170460),
  (306, 152567836482, 787567186362420), (284, 56373187712, 668129216370240),
  (358, 421258737082, 105226838318840), (347, 152200237477, 1021328554621100),
  (268, 357749600251, 983038901398780), (346, 165247014273, 668220517446780),
  (269, 445182417080, 938193999378540), (285, 97118840317, 668115754309680),
  (256, 367744143301, 106649547719000), (269, 178448639785, 612765545055720),
  (312, 463751658715, 533135744374080), (317, 615274242841, 332025710730100),
  (245, 471030710599, 2672489941359840), (249, 331328995337, 1081813528691580),
  (240, 487364672707, 614442034130420), (239, 135709001659, 706412138562280),
  (237, 319837233399, 572950644714900), (278, 150842060340, 492968532198360),
  (274, 361160906396, 19144826611160), (248, 393789974497, 1124368584642080),
  (242, 257630671866, 335586489788480), (241, 189683861728, 1564368020330980),
  (228, 71217112323, 986641688066520), (246, 16913226579, 270071514038580),
  (219, 3864812268, 52257741809380), (215, 344260776071, 882739026987480),
  (206, 523615052385, 692395345737360), (202, 60277862639, 1002182002644720),
  (226, 243332503270, 842924126646660), (202, 263373646725, 1002185453375160),
  (199, 326545613445, 38289653222320), (198, 450685315424, 24272860397400),
  (215, 212744795327, 55356940284240), (177, 392599588022, 803109226305840),
  (162, 394498519498, 292112778282460), (199, 422948972595, 331216323923200),
  (188, 67072289565, 629832832117640), (160, 290951395323, 687267311951120),
  (155, 124529852403, 336449086444760), (186, 244723831367, 350307906283200),
  (139, 575493557040, 763294325965020), (149, 49665393273, 896956889691100),
  (132, 497828413367, 174801641306700), (130, 66881298338, 1001472373309860),
  (128, 280753554051, 1458429827312060), (176, 237291314099, 211876386037840),
  (127, 176223414864, 1108121921028860), (127, 26234206855, 1335892658845020),
  (163, 583356697025, 63989728631400), (129, 202607662846, 334613535100720),
  (155, 157189307640, 376721061757580), (133, 420989922795, 1137170468975820),
  (114, 212636383988, 668833840040040), (130, 133114943655, 334772597370060),
  (110, 578893316282, 1617337116840440), (105, 327202438053, 1511398923821520),
  (117, 566812806862, 53680451209540), (106, 121268139587, 723479425624200),
  (108, 94652521237, 980853818466140), (121, 422204758443, 615864743530580),
  (124, 492495255567, 1296430070339100), (142, 385764234922, 689452394883760),
  (99, 562543167000, 1097355568635000), (100, 256456804207, 317814579056760),
  (131, 8971075365, 827382086703240), (112, 314240135508, 331673398895200),
  (95, 64723185059, 248741604494780), (87, 414322802003, 360369635007260),
  (87, 350260474148, 307752850332700), (96, 513010621713, 330458456002240),
  (82, 487880877413, 582802847164760), (83, 204400907684, 1898429263000960),
  (85, 333671991814, 175865307841680), (99, 328955694324, 1765478053974960),
  (78, 89238228021, 269973481931760), (95, 32948273562, 386318984479360),
  (83, 80327899268, 508503841111500), (91, 148623539837, 827029774868340),
  (75, 491191036053, 1002176996979660), (79, 425171159471, 737338245462640),
  (84, 216662156833, 1256615169998280), (88, 278893554858, 1176985369316640),
  (95, 29428946155, 562895647021120), (76, 523354729169, 1376059871020740),
  (92, 140883592065, 333673109134180), (69, 350477916910, 1071399488132620),
  (79, 61833410504, 95171840625060), (70, 193458925881, 347567750673520),
  (66, 501996258363, 1670658525184800), (67, 368731475523, 403277002792660),
  (71, 171691035008, 1057540668294180), (86, 182073461894, 1040473381232260)]

/-- `vsop87d_dict.py` 14135-14221. -/
def marsB1_2 : List (ℕ × ℕ × ℕ) := [
  (64, 243149744819, 264845482547300), (62, 25250107112, 398050971301380),
  (62, 316420520010, 1351787010623340), (78, 141762772678, 352311834900),
  (86, 334935714534, 158195934828300), (64, 375812808116, 159618644228460),
  (61, 137421861116, 41948464387520), (55, 111154560464, 43371173787680),
  (61, 533515994167, 85319638175200), (59, 80382380790, 1336243245314700),
  (55, 37478855406, 14956319713460), (53, 55329112916, 1431416811304980),
  (59, 7234691744, 653166165626500), (59, 283458587563, 1336246696045140),
  (59, 413409540555, 440710790388980), (57, 557913927474, 337664029337720),
  (49, 458036235824, 1055152824519400), (50, 201769015785, 1002281760116760),
  (55, 136081433917, 2139354196985760), (48, 159939595487, 1805292954315780),
  (45, 497928157994, 867196987044060), (44, 258542985685, 1391601910964160),
  (47, 140206686464, 842565083781480), (43, 21864618144, 977910867612540),
  (42, 622365857047, 391495722503460), (48, 344104044998, 69215760122680),
  (43, 321191030055, 624751311552280), (55, 401321481700, 1017725767953360),
  (53, 293285711320, 398149003408200), (39, 554634215618, 670200024889200),
  (41, 246188112193, 666044945790720), (49, 304236065330, 64087760738220),
  (39, 162689158397, 333508950239240), (38, 331198341709, 174442598441520),
  (38, 616317067723, 281803500860600), (38, 403534957207, 10309277421860),
  (44, 91040525278, 545937628707820), (49, 188325571471, 1121628429032400),
  (46, 562762941168, 916864089834740), (35, 165976191407, 1216800269657460),
  (47, 452334272666, 1002190459040220), (39, 208367076229, 1374534623902240),
  (39, 476186135572, 2059724396304120), (39, 300951950244, 334449376205780),
  (37, 133065895739, 1229595422960920), (40, 396893429107, 1317100144068760),
  (32, 91212661789, 1231018132361080), (32, 222618836835, 710782304427560),
  (32, 496078703650, 2473415439655740), (37, 330085609301, 2099539296644940),
  (33, 370858397913, 1002085695903120), (31, 418674524484, 1725663153634140),
  (34, 325657016622, 1405460730802600), (32, 575360661734, 654615977336420),
  (31, 316209740784, 1293585151592320), (37, 214901622101, 666597238221460),
  (30, 21926429217, 666086953400080), (30, 355459460301, 907011887384880),
  (29, 297927335664, 276626762836500), (29, 465051930186, 1023513637553740),
  (30, 516882435400, 1630491313009080), (32, 501760544488, 319104922956520),
  (29, 293988761068, 669647732458460), (29, 506447742493, 509926550511660),
  (29, 568073325802, 332997576135000), (29, 43949269085, 335124909204960),
  (32, 137056688814, 604034724601740), (32, 142334455474, 7626607127560),
  (33, 36423446435, 660495878212400), (33, 485478789063, 670158017279840),
  (30, 333348460172, 336906161416760), (28, 60182098585, 1176626326451460),
  (26, 105197848649, 1320702930736500), (26, 503535225585, 3006551184029820),
  (34, 365553061498, 1415874771361560), (25, 460925601393, 832967161059700),
  (25, 205970140678, 1739521973472580), (30, 522285260441, 948503276800400),
  (25, 484964369679, 164844675719740), (26, 547626814223, 307400538497800),
  (24, 245239543931, 1708595866572220), (29, 536428737888, 270782868738660),
  (24, 557488544800, 1026456588407340), (25, 422744782935, 169216566950240),
  (23, 609244870438, 2019909495963300), (28, 130366587075, 843987793181640),
  (32, 213597148493, 946826787725700)]

/-- `vsop87d_dict.py` 13934-14222. -/
def marsB1 : List (ℕ × ℕ × ℕ) := List.flatten [
  marsB1_0, marsB1_1, marsB1_2]

/-- `vsop87d_dict.py` 14224-14323. -/
def marsB2_0 : List (ℕ × ℕ × ℕ) := [
  (16726690, 60221392419, 334061242669980), (4986799, 314159265359, 0),
  (302141, 555871276021, 668122485339960), (25767, 189662673499, 1336244970679920),
  (21452, 91749968618, 1002183728009940), (11820, 224240738700, 333708930835080),
  (7985, 224892866611, 1670306213349900), (2960, 589425825808, 349603282613400),
  (2445, 518770525274, 562184292321040), (1428, 125238140580, 228123049651060),
  (1779, 258759968520, 2004367456019880), (1501, 318533003542, 353206069281140),
  (1259, 480695172904, 318519202726560), (1029, 235029907056, 667770173505060),
  (1109, 380982317372, 588492684658320), (928, 29719160927, 334413554504880),
  (860, 311698318930, 615153388830500), (853, 133003321402, 52969096509460),
  (883, 518681316017, 548677784317500), (1100, 182962075794, 294246342329160),
  (815, 340910567373, 254431441988340), (702, 549076132554, 896245534991020),
  (644, 31400306761, 508862883976680), (745, 430248377111, 334059517304760),
  (586, 448071459693, 389418182954220), (681, 540951261308, 281092146160520),
  (745, 5006463495, 334062968035200), (542, 468895461946, 333963210563160),
  (497, 465665197749, 509215195811580), (460, 106670343610, 309788382272579),
  (423, 308034568777, 429233083295040), (381, 224933115190, 628307584999140),
  (429, 170668733378, 469047983635860), (339, 292195933142, 2338428698689860),
  (310, 563324402105, 372350895892300), (287, 198619629868, 39814900340820),
  (298, 258990636818, 668474797174860), (323, 515230144390, 652580445396540),
  (247, 236923535528, 334054511639700), (247, 196071951597, 334067973700260),
  (223, 475562842441, 214616541647520), (240, 353331653789, 358334103067380),
  (238, 469268478666, 625462666252360), (198, 621548965568, 278704302385740),
  (202, 425439775032, 333349887969900), (158, 189216973387, 667411130639880),
  (185, 299350590687, 1002536039844840), (177, 141002572971, 643849624942560),
  (138, 123172102079, 312731333126180), (153, 593528616595, 683664525283380),
  (106, 535414400998, 373876143010800), (102, 367040445208, 105938193018920),
  (136, 106039656714, 238889402044920), (93, 504434801864, 15542039943420),
  (93, 270817394910, 895534180290940), (108, 613917250674, 174801641306700),
  (116, 597739483530, 291401423582380), (99, 150221319099, 175153953141600),
  (92, 268470906437, 199074501704100), (77, 401966292109, 159259601363280),
  (76, 449660101731, 456246099302120), (76, 567354102576, 604132756708560),
  (78, 79220883728, 228834404351140), (74, 584795427965, 334159274776800),
  (80, 548556941416, 843276438481560), (65, 211705931744, 1001831416175040),
  (66, 508073805943, 295771589447660), (59, 379695096075, 692395345737360),
  (61, 451116100631, 493320844033260), (59, 27765984344, 612765545055720),
  (52, 584885902302, 453505943692440), (51, 145495904398, 747752286021600),
  (54, 150278239577, 648977658728800), (56, 523212313891, 986641688066520),
  (57, 473711357046, 227411694950980), (51, 248654805044, 646792575796160),
  (47, 325899585469, 2672489941359840), (48, 112255878532, 134986740965880),
  (48, 287122326236, 24272860397400), (45, 161358524585, 572950644714900),
  (43, 224334731490, 711354700080), (44, 461065704096, 1177337681151540),
  (42, 332038536161, 1336597282514820), (47, 510736479739, 896956889691100),
  (44, 464194663616, 439999435688900), (39, 545779680648, 803109226305840),
  (44, 521409542420, 413691043351620), (45, 426206063790, 79629800681640),
  (48, 304342098072, 533135744374080), (42, 212882700518, 21329909543800),
  (38, 249365585516, 95171840625060), (37, 344816851943, 332535995551480),
  (38, 313981385980, 314916416058820), (39, 364984946180, 55356940284240),
  (36, 54858124109, 763294325965020), (32, 429985057106, 335586489788480),
  (37, 626349600634, 668220517446780), (37, 383188032092, 387030339179440),
  (31, 494959395405, 668024453233140), (35, 614813219827, 336096774609859)]

/-- `vsop87d_dict.py` 14324-14353. -/
def marsB2_1 : List (ℕ × ℕ × ℕ) := [
  (29, 54115054572, 668129216370240), (35, 149899662719, 332025710730100),
  (33, 19183878029, 334772597370060), (36, 328055425527, 158907289528380),
  (31, 566015228291, 106649547719000), (28, 418178455540, 721091581849420),
  (25, 121627749818, 949214631500480), (29, 202283118033, 723479425624200),
  (24, 296777681837, 706412138562280), (24, 216823248221, 1041998628350760),
  (22, 467496434823, 119444701022460), (22, 501797528499, 959523908922340),
  (28, 419843924702, 842924126646660), (23, 621195010050, 774060678358880),
  (25, 145100528915, 687267311951120), (24, 193342510858, 269973481931760),
  (28, 587009898150, 105226838318840), (25, 249707182259, 211876386037840),
  (20, 15682384975, 320554734666440), (19, 382087005916, 1230306777661000),
  (20, 626534330674, 787567186362420), (19, 99282533197, 52257741809380),
  (18, 411668144665, 42659819087600), (20, 328531167827, 922553927328300),
  (19, 572169822815, 1137170468975820), (18, 476871968197, 38289653222320),
  (17, 96519535826, 19144826611160), (17, 86184324841, 1097355568635000),
  (18, 622706341047, 938193999378540), (15, 54135050421, 64087760738220)]

/-- `vsop87d_dict.py` 14223-14354. -/
def marsB2 : List (ℕ × ℕ × ℕ) := List.flatten [
  marsB2_0, marsB2_1]

/-- `vsop87d_dict.py` 14356-14396. -/
def marsB3_0 : List (ℕ × ℕ × ℕ) := [
  (606506, 198050633529, 334061242669980), (42611, 0, 0),
  (13652, 179588228800, 668122485339960), (2730, 345377082121, 1002183728009940),
  (929, 375226159072, 333708930835080), (607, 10618486408, 1336244970679920),
  (617, 114471772765, 349603282613400), (479, 70504966293, 1670306213349900),
  (185, 328778562029, 318519202726560), (169, 29980532608, 562184292321040),
  (158, 109025317222, 2004367456019880), (123, 255664973413, 309788382272579),
  (126, 474517022983, 353206069281140), (93, 603607685759, 389418182954220),
  (99, 492257049901, 254431441988340), (106, 341315845439, 294246342329160),
  (62, 625738949900, 333963210563160), (58, 464867983361, 429233083295040),
  (50, 375358626972, 667770173505060), (50, 189408668049, 508862883976680),
  (58, 365295480755, 652580445396540), (45, 38295906298, 548677784317500),
  (52, 325535694335, 469047983635860), (44, 189342588822, 358334103067380),
  (37, 4871920725, 214616541647520), (39, 91787211117, 372350895892300),
  (51, 524063514394, 588492684658320), (36, 279633276263, 52969096509460),
  (32, 144641701752, 2338428698689860), (24, 541362501363, 334059517304760),
  (23, 470639896508, 278704302385740), (21, 112581894224, 334062968035200),
  (21, 51744721589, 896245534991020), (18, 36433365806, 15542039943420),
  (18, 553170427847, 333349887969900), (19, 434401282378, 615153388830500),
  (21, 294765501590, 39814900340820), (20, 596181389299, 509215195811580),
  (17, 80891817293, 119444701022460), (11, 43817745316, 105938193018920),
  (14, 106654064248, 683664525283380)]

/-- `vsop87d_dict.py` 14355-14397. -/
def marsB3 : List (ℕ × ℕ × ℕ) := marsB3_0

/-- `vsop87d_dict.py` 14399-14409. -/
def marsB4_0 : List (ℕ × ℕ × ℕ) := [
  (11334, 345724352586, 334061242669980), (13369, 0, 0),
  (744, 50445805257, 668122485339960), (148, 105056602649, 1002183728009940),
  (102, 266185835593, 349603282613400), (53, 527888218929, 333708930835080),
  (22, 409971603267, 309788382272579), (23, 172422342130, 318519202726560),
  (13, 541704779112, 1670306213349900), (13, 206957065662, 1336244970679920),
  (10, 95989595600, 389418182954220)]

/-- `vsop87d_dict.py` 14398-14410. -/
def marsB4 : List (ℕ × ℕ × ℕ) := marsB4_0

/-- `vsop87d_dict.py` 14412-14416. -/
def marsB5_0 : List (ℕ × ℕ × ℕ) := [
  (457, 486794125358, 334061242669980), (53, 530547050586, 668122485339960),
  (12, 575114070583, 1002183728009940), (13, 417736925293, 349603282613400),
  (7, 0, 0)]

/-- `vsop87d_dict.py` 14411-14417. -/
def marsB5 : List (ℕ × ℕ × ℕ) := marsB5_0

/-- `vsop87d_dict.py` 13490-14418 `_planets[("Mars", "B")]`. -/
def marsB : List (List (ℕ × ℕ × ℕ)) :=
  [marsB0, marsB1, marsB2, marsB3, marsB4, marsB5]

/-- `vsop87d_dict.py` 14421-14520. -/
def marsR0_0 : List (ℕ × ℕ × ℕ) := [
  (153033488276, 0, 0), (14184953153, 347971283519, 334061242669980),
  (660776357, 381783442097, 668122485339960), (46179117, 415595316284, 1002183728009940),
  (8109738, 555958460165, 281092146160520), (7485315, 177238998069, 562184292321040),
  (5523193, 136436318880, 228123049651060), (3825160, 449407182408, 1336244970679920),
  (2306539, 9081742493, 254431441988340), (1999399, 536059605227, 333708930835080),
  (2484385, 492545577893, 294246342329160), (1960198, 474249386323, 334413554504880),
  (1167115, 211261501155, 509215195811580), (1102828, 500908264160, 39814900340820),
  (899077, 440790433994, 52969096509460), (992252, 583862401067, 615153388830500),
  (807348, 210216647104, 105938193018920), (797910, 344839026172, 79629800681640),
  (740980, 149906336892, 214616541647520), (692340, 213378814785, 896245534991020),
  (633144, 89353285018, 334059517304760), (725583, 124516913473, 843276438481560),
  (633140, 292430448169, 334062968035200), (574352, 82896196337, 291401423582380),
  (526187, 538292276228, 373876143010800), (629976, 128738135858, 175153953141600),
  (472776, 519850457873, 312731333126180), (348095, 483219198908, 1670306213349900),
  (283702, 290692294913, 353206069281140), (279552, 525749247548, 628307584999140),
  (233827, 510546492529, 548677784317500), (219428, 558340248784, 19144826611160),
  (269891, 376394728622, 588492684658320), (208333, 525476080773, 334054511639700),
  (275224, 290818883832, 174801641306700), (275501, 121767967781, 625462666252360),
  (239133, 203669896238, 119444701022460), (223190, 419861593779, 314916416058820),
  (182686, 508062683355, 668474797174860), (186213, 569871555748, 667770173505060),
  (175995, 595341786369, 387030339179440), (178613, 418423025538, 333349887969900),
  (208336, 484626442122, 334067973700260), (228128, 325529020620, 687267311951120),
  (144286, 21296012258, 508862883976680), (163534, 379889068111, 413691043351620),
  (133120, 153910106710, 790307341972100), (141759, 247790321309, 456246099302120),
  (114941, 431745088059, 134986740965880), (118781, 212178071222, 158907289528380),
  (102096, 618138550087, 949214631500480), (128555, 549883294915, 882739026987480),
  (111538, 55339169625, 1124368584642080), (82498, 162227044590, 1177337681151540),
  (83212, 61553380568, 842924126646660), (84470, 62274593110, 159259601363280),
  (86659, 174988330093, 270071514038580), (71826, 247489899385, 1230306777661000),
  (85312, 161621097912, 469047983635860), (63641, 267334126661, 42659819087600),
  (68599, 240197828418, 439999435688900), (58559, 472052787516, 21329909543800),
  (62015, 110065866221, 122184856632140), (66509, 221307705185, 604132756708560),
  (55811, 123288325946, 318519202726560), (54989, 572691385306, 95171840625060),
  (52418, 302366828926, 429233083295040), (55686, 544686699242, 372350895892300),
  (58959, 326242666052, 668124210705180), (44629, 201473640390, 803109226305840),
  (58959, 123165502899, 668120759974740), (42444, 226551590902, 15542039943420),
  (38956, 257760416009, 334159274776800), (51561, 572326937712, 707937385680780),
  (48939, 561614696751, 355391152213780), (45414, 543290921705, 646792575796160),
  (36435, 443921812388, 389418182954220), (35980, 115966567007, 228834404351140),
  (35265, 549029710802, 199074501704100), (42191, 163253742760, 562895647021120),
  (44292, 500341366850, 561472937620960), (33623, 517029029766, 2004367456019880),
  (43256, 103732072925, 1176985369316640), (39237, 124237122859, 333963210563160),
  (31943, 459258406791, 227411694950980), (30345, 244177670130, 1137170468975820),
  (32259, 238215172582, 453505943692440), (31870, 437521442752, 352311834900),
  (29350, 406034813442, 309788382272579), (31972, 193970478412, 38289653222320),
  (26166, 558466944895, 962368827669120), (27904, 425805969214, 319104922956520),
  (33065, 85467740581, 55356940284240), (27543, 157668567401, 959523908922340),
  (25159, 81355213242, 1071399488132620), (22070, 85747723964, 331983703120740),
  (24772, 538970742761, 281803500860600), (23359, 601453778225, 349603282613400),
  (24732, 258034797703, 280380791460440), (19365, 518528750472, 668129216370240)]

/-- `vsop87d_dict.py` 14521-14620. -/
def marsR0_1 : List (ℕ × ℕ × ℕ) := [
  (19122, 541968559451, 1002536039844840), (19364, 559378382138, 668115754309680),
  (18330, 579567324240, 706412138562280), (18193, 561307426173, 711354700080),
  (20392, 453637816869, 648977658728800), (21260, 619160142215, 1405460730802600),
  (17094, 155004739305, 295771589447660), (22791, 341709388606, 763294325965020),
  (20585, 298697279083, 336138782219220), (18005, 281431094394, 403277002792660),
  (17049, 615528099726, 1040473381232260), (16488, 384534700818, 1097355568635000),
  (16052, 92823508003, 1458429827312060), (21027, 238474290907, 498905918389720),
  (16267, 192321585819, 737338245462640), (16291, 628233085307, 721091581849420),
  (18585, 407325116588, 238889402044920), (15977, 458368417141, 326434635542420),
  (19913, 273518445950, 509926550511660), (19661, 186285979000, 344370520091840),
  (16500, 414061745086, 747752286021600), (19495, 603778234182, 1001831416175040),
  (15104, 265433427561, 278704302385740), (19099, 22623441108, 1374534623902240),
  (17163, 318825562972, 334772597370060), (13423, 212818658793, 334420285535160),
  (15410, 220773507960, 211876386037840), (17238, 367067776368, 320554734666440),
  (13113, 427490214998, 1431416811304980), (16451, 286641622696, 1471231711645800),
  (13734, 168629769646, 333702199804800), (16659, 452130808861, 667411130639880),
  (11830, 19684525299, 347567750673520), (11767, 322897247987, 582802847164760),
  (11886, 482057654742, 723479425624200), (10609, 173997337551, 63989728631400),
  (11154, 23859830185, 1283275874170460), (11030, 44541706440, 1021328554621100),
  (10240, 574758340632, 24272860397400), (10051, 245102946726, 492968532198360),
  (10061, 78907665448, 938193999378540), (10065, 537506605762, 508503841111500),
  (11902, 79897698904, 326583082813250), (8990, 96463418322, 493320844033260),
  (8970, 418326774405, 922553927328300), (8982, 198501418026, 1511398923821520),
  (8324, 193694866513, 164844675719740), (7833, 204997447879, 175865307841680),
  (7957, 392331072722, 292112778282460), (10224, 266497189021, 248741604494780),
  (8277, 94860765546, 290690068882300), (7371, 84378341481, 69215760122680),
  (7545, 568031160782, 1391601910964160), (7912, 281294761885, 1564368020330980),
  (6958, 332193127272, 323040610548040), (7426, 609656283295, 358334103067380),
  (6402, 419806996774, 520235827933520), (6529, 611929252710, 13506508003540),
  (6130, 117252232, 683664525283380), (6226, 610683955669, 1725663153634140),
  (8193, 524811458833, 1057540668294180), (6168, 360069207439, 1002185453375160),
  (6169, 156992114335, 1002182002644720), (5671, 13650306660, 1352491634293140),
  (6257, 450450768937, 842565083781480), (5249, 270122358603, 445936821880260),
  (6479, 274267498287, 774060678358880), (5530, 606408145092, 1041998628350760),
  (5536, 574996063243, 1216800269657460), (6826, 469327545839, 1765478053974960),
  (5005, 468382632238, 52257741809380), (6328, 331896726895, 376721061757580),
  (4734, 755678425, 332535995551480), (5032, 233696685608, 105226838318840),
  (4661, 515051711401, 106649547719000), (4724, 577956037309, 980853818466140),
  (5136, 157259709878, 652580445396540), (4522, 144218620352, 336906161416760),
  (6189, 458996159356, 653166165626500), (6205, 448164856516, 2274729071487440),
  (5329, 455145599182, 174442598441520), (4511, 594511266539, 689452394883760),
  (4330, 310901365758, 456957454002200), (5366, 508043436437, 270782868738660),
  (5134, 128568358496, 843987793181640), (4127, 548538052912, 269973481931760),
  (5394, 521695066244, 530545105355380), (4449, 556764082611, 1686552876963120),
  (3898, 148782434790, 916864089834740), (3863, 123050803930, 1685848253293320),
  (3766, 27090392616, 1739521973472580), (4683, 305668892586, 551875014899180),
  (4258, 279090145790, 350307906283200), (3864, 37957291785, 1017725767953360),
  (3992, 184424768030, 313442687826260), (3643, 295318600206, 614442034130420),
  (3654, 158063207414, 668024453233140), (3931, 198436570971, 896956889691100),
  (3350, 272637081667, 787567186362420), (3623, 291544991631, 668220517446780)]

/-- `vsop87d_dict.py` 14621-14720. -/
def marsR0_2 : List (ℕ × ℕ × ℕ) := [
  (4392, 81931997702, 330247939106200), (4062, 546935175827, 312019978426100),
  (3319, 177193665786, 311626763099790), (3510, 118027333874, 1018430391623160),
  (4008, 133675167812, 624751311552280), (3603, 15469852619, 217813772229200),
  (3313, 312853663982, 1727740693183380), (4138, 439568891039, 307400538497800),
  (3201, 336492925275, 238432327072920), (3991, 382867836910, 335586489788480),
  (4205, 190532279170, 26308392337280), (3743, 425458024187, 626174020952440),
  (3111, 165445053349, 2019909495963300), (3634, 555063049451, 63278373931320),
  (2892, 191514920700, 1293585151592320), (3373, 550812408522, 2338428698689860),
  (3312, 583174680245, 533135744374080), (3124, 544069658195, 604844111408640),
  (3813, 80274487430, 1351787010623340), (3612, 368140265686, 572493569742900),
  (2813, 168598843422, 239143681773000), (2902, 530666239739, 895534180290940),
  (3225, 229832592489, 331216323923200), (3863, 348188264725, 2061801935853360),
  (2738, 549768261369, 14956319713460), (2809, 476933217397, 196483862685400),
  (2711, 269244730345, 317814579056760), (2711, 238275660721, 264845482547300),
  (2743, 109492569851, 53680451209540), (2821, 591845472246, 1296430070339100),
  (2716, 610377796874, 397339616601300), (2487, 387703916286, 186174585263540),
  (2617, 265526535627, 832967161059700), (2938, 568402398615, 615864743530580),
  (2336, 324847913311, 467266731424060), (2318, 169214259672, 391495722503460),
  (2371, 475067664712, 10309277421860), (2963, 23381699914, 2059724396304120),
  (2190, 618344448099, 334613535100720), (2444, 192547995169, 779998064550240),
  (2121, 487491216115, 983038901398780), (2532, 539550087270, 386318984479360),
  (2101, 284309138388, 341539402526710), (2176, 58632570025, 16246663613220),
  (2106, 306229353931, 1980094595622480), (2347, 390795942709, 333508950239240),
  (2031, 552057907797, 1002190459040220), (1997, 277243710569, 1393679450513400),
  (2139, 540620646615, 26660704172180), (2147, 8966987600, 1335892658845020),
  (1996, 262541669265, 2077539549240), (1961, 488521794174, 323751965248120),
  (2216, 106829128652, 332025710730100), (2131, 302112533027, 562536604155940),
  (2124, 368620121537, 561831980486140), (1938, 129006691721, 1792491069982040),
  (2555, 491826220321, 660495878212400), (2561, 210055088914, 791018696672180),
  (1820, 557528712663, 335124909204960), (1786, 577310414452, 360721946842160),
  (1780, 448010071981, 1081813528691580), (2106, 575526661975, 1336597282514820),
  (1987, 261151965233, 354679797513700), (1799, 273192475257, 336096774609859),
  (1715, 150805385053, 169216566950240), (1752, 221455466761, 1311972110282519),
  (1913, 332230688971, 670200024889200), (1724, 143449979531, 488596640967860),
  (2050, 119293239093, 666044945790720), (1774, 218404386388, 678431762761820),
  (1722, 486031154305, 1001472373309860), (1773, 209448668554, 360369635007260),
  (1606, 348105136801, 2314155838292460), (1621, 573820120882, 455534744602040),
  (1579, 188769198841, 629832832117640), (1530, 516381564230, 7626607127560),
  (1615, 324110713658, 365700429635640), (1576, 352622401575, 668833840040040),
  (2034, 263620520451, 1646033352952499), (2025, 592907541624, 1002176996979660),
  (1689, 441053057494, 572950644714900), (1878, 453291044847, 332997576135000),
  (1530, 476331644411, 789595987272020), (1529, 135289110986, 158195934828300),
  (1807, 186212004697, 269360159338500), (1855, 238561742394, 684369148953180),
  (1518, 398476157750, 654615977336420), (1389, 182099537095, 977910867612540),
  (1447, 235649936427, 603421402008480), (1386, 555304113895, 477576008845920),
  (1372, 107224580315, 1272255242048520), (1423, 446530428193, 57434479833480),
  (1424, 257162391016, 339998628861340), (1380, 576156315252, 1633583780453660),
  (1338, 297604558638, 612765545055720), (1479, 474310691166, 1256615169998280),
  (1706, 30579918494, 1055152824519400), (1281, 200285974432, 667763442474780),
  (1350, 78892333409, 85319638175200), (1534, 433326399444, 64087760738220)]

/-- `vsop87d_dict.py` 14721-14820. -/
def marsR0_3 : List (ℕ × ℕ × ℕ) := [
  (1247, 102503908468, 302422055704320), (1289, 192786975543, 334765866339780),
  (1243, 244217806237, 668481528205140), (1453, 174218016403, 333356619000180),
  (1675, 179693456330, 111875579210280), (1491, 259386711806, 249452959194860),
  (1293, 331710472549, 340709983561420), (1188, 492989260576, 2274340937951640),
  (1329, 199426530402, 122896211332220), (1373, 253354987340, 545937628707820),
  (1183, 425338096667, 334449376205780), (1231, 250206227837, 435627544458400),
  (1243, 265176267860, 7478159856730), (1285, 434087881585, 332638533269820),
  (1119, 191321862491, 328123856478620), (1094, 550748655535, 301710701004240),
  (1259, 377654662830, 1123657229942000), (1285, 138335267684, 307752850332700),
  (1100, 117130732373, 660644325483230), (1115, 581275569652, 267585638156980),
  (1380, 570641426169, 280739834325620), (1256, 335479933251, 403988357492740),
  (1187, 241348693872, 1059618207843420), (1052, 333521939538, 330458456002240),
  (1188, 584735836632, 333673109134180), (1072, 278383184435, 827029774868340),
  (1105, 303463252672, 392967725370800), (1013, 352026711847, 801327974094040),
  (1079, 51857999039, 281444457995420), (999, 472734008760, 53321408344360),
  (1131, 52584038526, 681628993343500), (1191, 60874292520, 230158581590939),
  (1313, 207273299121, 2353970738633280), (996, 403971126547, 1606218452611680),
  (954, 590340414098, 2020614119633100), (993, 7132588892, 2415008005134500),
  (1051, 222096534870, 398050971301380), (1089, 125512213569, 593823479286700),
  (912, 254221161167, 43371173787680), (1249, 60003625956, 1617337116840440),
  (1027, 495999945094, 1967645023123640), (1108, 434209448160, 333912795399150),
  (1188, 621563747433, 267937949991880), (849, 82548606454, 259762236616720),
  (1145, 448151980872, 1940279695281660), (948, 130280088857, 827382086703240),
  (1016, 514464815830, 159618644228460), (832, 560623652030, 334019235060619),
  (1035, 471893106874, 41948464387520), (903, 45419000582, 1299522537783680),
  (1089, 51294377637, 1125079939342160), (840, 530858028008, 2608402180621620),
  (990, 206776368865, 725556965173440), (808, 625630819993, 1550861512327440),
  (806, 309007612135, 541565737477320), (782, 462274599734, 254783753823240),
  (963, 210680539916, 645688005769770), (778, 356602161857, 1272157209941700),
  (873, 509097164784, 254079130153440), (772, 308101797047, 1108121921028860),
  (965, 233106703115, 1845460166491500), (859, 414788214122, 643849624942560),
  (1012, 445011664540, 331673398895200), (906, 429336078401, 334454457996290),
  (741, 261446403580, 228475361485960), (790, 603436225041, 1250925332504720),
  (738, 52092422137, 1805292954315780), (737, 411165247543, 376009707057500),
  (727, 328066632751, 351019260983280), (1006, 45037465289, 2749069247804480),
  (923, 278717931388, 133205488754080), (756, 86881841787, 154535398297880),
  (774, 371535541900, 657101853218020), (900, 274944190055, 31639186965660),
  (704, 189617185328, 1336243245314700), (701, 221328293796, 2099539296644940),
  (701, 392689438700, 1336246696045140), (695, 552658147215, 336449086444760),
  (764, 188253040972, 573204924442980), (693, 34849213821, 583514201864840),
  (698, 179132650081, 20618554843720), (687, 11649928911, 1376059871020740),
  (827, 49766945172, 337664029337720), (686, 23965591265, 240924933984800),
  (672, 51352450554, 2568587280280800), (699, 590167595080, 1900464794940840),
  (647, 301091875955, 522369391980220), (643, 488507402785, 1176626326451460),
  (723, 328296530537, 414297634914600), (660, 427334393830, 121473501932060),
  (675, 48874492682, 540854382777240), (809, 313310075522, 1898429263000960),
  (646, 363004914186, 710782304427560), (831, 449449658957, 334103250279340),
  (680, 16949964513, 11020632121940), (592, 603272224596, 2080946762464520),
  (627, 493438097728, 987227408296480), (698, 145709305452, 337721779200400),
  (583, 401887095237, 66475604513000), (591, 401381288194, 1940667828817460)]

/-- `vsop87d_dict.py` 14821-14920. -/
def marsR0_4 : List (ℕ × ℕ × ℕ) := [
  (571, 120823284619, 562186017686260), (680, 472905586557, 811637251515900),
  (739, 319765996917, 938095967271720), (571, 546064659057, 562182566955820),
  (702, 14107083764, 692395345737360), (598, 305986754375, 334104230982650),
  (601, 217944973698, 727028968040780), (572, 42001145821, 1511046611986620),
  (655, 108706089359, 316993955608060), (582, 168224967199, 2608790314157420),
  (543, 242716241058, 17067287061920), (543, 168460678113, 1178049035851620),
  (533, 263982684952, 227770737816160), (550, 254220679987, 738049600162720),
  (576, 169042028754, 338433133900480), (535, 501279223460, 137577379984580),
  (579, 599182453047, 214968853482420), (598, 75754342787, 334018254357310),
  (575, 133793171924, 329689351439480), (689, 2993986536, 2234526037610820),
  (526, 614212516186, 1314915061136120), (540, 554137118955, 864606348025360),
  (528, 274183495775, 382658447948940), (689, 628205551764, 1229595422960920),
  (499, 25665224668, 214264229812620), (498, 591370528026, 646081221096080),
  (588, 339977690249, 332956672643590), (507, 63367870048, 2073583216142559),
  (590, 387951788923, 906554812412880), (509, 259333214746, 387741693879520),
  (486, 401113864377, 2393785638974100), (541, 155072392536, 222185663459700),
  (482, 200643783, 1023513637553740), (474, 414503805378, 311313629391080),
  (523, 289171162726, 604034724601740), (458, 408131432844, 116247470440780),
  (493, 298933582802, 103902661079040), (489, 488201647585, 551163660199100),
  (537, 124870344441, 4883519385644859), (585, 553384919340, 498194563689640),
  (462, 538999453893, 1566403552270859), (531, 122287288928, 1072110842832700),
  (440, 469966067585, 79982112516540), (588, 515076051189, 387382651014340),
  (465, 549236978535, 334209689940810), (545, 591813092143, 147886657406440),
  (440, 228287871244, 1231018132361080), (436, 12478564862, 95628915597060),
  (573, 386388572602, 2648217080962440), (429, 120474317285, 2844918746780),
  (435, 375437730899, 519524473233440), (457, 145606713663, 563607001721200),
  (553, 530628175145, 276626762836500), (494, 63303483918, 327412501778540),
  (530, 318458612574, 853585715903420), (535, 189165024367, 986641688066520),
  (433, 33270291162, 666597238221460), (404, 467939964590, 482554491639400),
  (402, 325727658426, 582091492464680), (415, 141915166067, 2194711137270000),
  (414, 332843373219, 885936257569160), (403, 168400791606, 958812554222260),
  (399, 93465630912, 229545759051220), (402, 85364636108, 2902648522950779),
  (494, 457792960199, 854297070603500), (413, 260545132222, 3813303563780),
  (413, 544081623497, 440710790388980), (404, 533168348188, 318956475685690),
  (385, 190313951519, 1002085695903120), (454, 118358809702, 1061090210710760),
  (381, 490212003667, 1914675926614180), (415, 307892141478, 1121628429032400),
  (378, 19461412344, 206793140107260), (418, 114626975196, 664309181776180),
  (426, 433863084563, 22041264243880), (412, 2314567339, 319253370227350),
  (391, 475902617217, 641461781167780), (399, 137708573980, 965461295113700),
  (381, 274120772781, 185463230563460), (378, 416366866018, 1355389797291080),
  (409, 312117409635, 372349170527080), (379, 587578711682, 635771943674220),
  (375, 329175394061, 3102275317085620), (358, 399134138048, 895893223156120),
  (390, 201175211992, 190343681250120), (373, 127018251531, 211165031337760),
  (493, 466294641806, 143514766175940), (379, 408720452061, 1070688133432540),
  (461, 190122301470, 2528772379939980), (364, 325231136840, 509567507646480),
  (382, 218684874688, 1627646394262300), (359, 229096599931, 2862833622609960),
  (362, 415084528423, 669647732458460), (374, 578780163439, 349017562383440),
  (386, 473230339383, 398149003408200), (344, 579156714790, 2688031981303260),
  (368, 344405073824, 1525247118500), (410, 176294940448, 670967404086740),
  (339, 171242500987, 22434479570190), (373, 271286157688, 347215438838620)]

/-- `vsop87d_dict.py` 14921-15020. -/
def marsR0_5 : List (ℕ × ℕ × ℕ) := [
  (334, 110569460106, 5937386191360), (394, 402046774116, 207504494807340),
  (402, 327520695853, 93136308685180), (318, 328892524780, 948503276800400),
  (319, 405344391333, 345081874791920), (341, 608567978892, 1708595866572220),
  (378, 71609301686, 320907046501340), (326, 458257191106, 898281066930900),
  (369, 617228742886, 867196987044060), (308, 101924467785, 1860649894600020),
  (370, 284011243059, 439288080988820), (303, 500239879717, 281093871525740),
  (303, 297162741204, 281090420795300), (419, 279830562400, 510637905211740),
  (358, 115955325186, 407648894023160), (360, 583226123310, 2672489941359840),
  (298, 557160706753, 304148603243060), (298, 306970285022, 1167028403729680),
  (388, 501197738185, 1232342309600880), (336, 460208332758, 960235263622420),
  (371, 223508025241, 499617273089800), (300, 604069385215, 949925986200560),
  (345, 174260482164, 561791076994730), (302, 301127349940, 748358877584580),
  (289, 39479288685, 241277245819700), (289, 221430640344, 1114059307220220),
  (330, 581605457596, 424606912336460), (394, 212229107240, 647503930496240),
  (301, 526147877814, 994557120882380), (338, 494717046909, 562577507647350),
  (372, 546968662800, 356102506913860), (279, 54063870001, 322621331978640),
  (291, 521021494024, 1317100144068760), (384, 323921380878, 1002281760116760),
  (309, 317514941939, 1404749376102520), (273, 168203034215, 425318267036540),
  (272, 11218647217, 731400859271280), (281, 515132055967, 282514855560680),
  (292, 333720586058, 946826787725700), (316, 141719074976, 58906482700820),
  (264, 48845594730, 1669953901514999), (266, 169694779915, 64701083331480),
  (318, 247072726153, 843628750316460), (260, 254459932529, 2035531939880),
  (275, 278608579994, 297091261075940), (295, 596367554548, 402565648092580),
  (268, 301034973031, 651875821726740), (259, 520888482695, 736626890762560),
  (298, 271010678192, 665277566593180), (276, 78545108300, 373523831175900),
  (305, 619137255377, 667734351804160), (265, 325145629239, 2488957479599160),
  (260, 399612605351, 217102417529120), (252, 414773813625, 564219824260920),
  (254, 138470256851, 84608283475120), (258, 203261985834, 208978223039900),
  (298, 381212222628, 2823018722269139), (241, 296550398155, 2768214074415640),
  (259, 479545870271, 665734641565180), (238, 118977479528, 317103224356680),
  (256, 101427800277, 56882187402740), (236, 556425829084, 1422709400160),
  (304, 381556245925, 119092389187560), (237, 137222961867, 227729834324750),
  (239, 247752611026, 543039465709880), (234, 434929504798, 667570192909220),
  (239, 14012746335, 374228454845700), (286, 504045301355, 560761582920880),
  (305, 459739079660, 668510618875760), (254, 503693878366, 190546476494040),
  (323, 167390215145, 492257177498280), (232, 482565548677, 907011887384880),
  (236, 240662610715, 362039893105220), (260, 572282468723, 1746885519794540),
  (259, 615179402778, 1670658525184800), (263, 63922292958, 200855753915900),
  (300, 378527265088, 3436336559755600), (226, 186970344963, 641814093002680),
  (239, 4616997400, 1336238239649640), (241, 485896907298, 1415874771361560),
  (225, 170179250908, 1845107854656599), (288, 226316945288, 662185099148600),
  (231, 219861265305, 393679080070880), (251, 551232121883, 341687849797540),
  (245, 330613942274, 119797012857360), (253, 454308131689, 228516264977370),
  (225, 550822507089, 493679886898440), (249, 106089727346, 331321087060300),
  (309, 621936675838, 1630491313009080), (244, 194855224181, 359042865180),
  (287, 570461951656, 79277488846740), (254, 534446995416, 540143028077160),
  (263, 149663212332, 636483298374300), (223, 266825139116, 3196894865279940),
  (222, 248370132727, 535523588148860), (220, 520799024654, 2301706265793620),
  (215, 272743996418, 674059871531320), (218, 130797197521, 2982278323632420),
  (270, 90714939427, 615505700665400), (216, 473975263349, 667974038069130)]

/-- `vsop87d_dict.py` 15021-15120. -/
def marsR0_6 : List (ℕ × ℕ × ℕ) := [
  (211, 372756562629, 1004261267559180), (211, 261999755641, 1012493005431800),
  (293, 607059383381, 1406172085502680), (219, 298472846458, 13154196168640),
  (210, 527496906319, 1335533615979840), (259, 125267305830, 264134127847220),
  (208, 330241021109, 685080503653260), (226, 548438086246, 720380227149340),
  (243, 244748800604, 331118291816379), (208, 113500579457, 588844996493220),
  (251, 467012983729, 666699775939800), (227, 159926413307, 1000106188460700),
  (264, 372622435628, 674771226231400), (216, 34122804918, 668674777770700),
  (260, 367749190896, 664519698672220), (209, 431928920378, 333786091608880),
  (218, 408068730999, 337874546233760), (275, 164274205426, 201110033643980),
  (204, 73237459784, 393215326310), (219, 88584017263, 1951398359510420),
  (205, 260851826933, 277179055267240), (215, 299299817517, 1082420120254560),
  (249, 99914444136, 575338488489680), (225, 23309143434, 478287363546000),
  (275, 86215660461, 874915625447220), (201, 287118854159, 2154896236929180),
  (246, 334468800742, 333392876282570), (203, 411410443276, 3157079964939120),
  (202, 496805650734, 816615734309380), (232, 269372584349, 598906725217280),
  (214, 483852070026, 668164492949320), (258, 266551831451, 106290504853820),
  (197, 55202541352, 73587651353180), (256, 276274941586, 248030249794700),
  (216, 402506717011, 313391168940320), (193, 152645682146, 94917560896980),
  (209, 67348618655, 1389214067189380), (220, 152502617699, 666086953400080),
  (223, 109348882524, 614801076995600), (192, 290571322264, 879998871377800),
  (243, 336420301442, 896597846825920), (206, 511175800472, 414043355186520),
  (189, 106641624209, 937482644678460), (240, 592078519032, 1336251701710200),
  (248, 579997873732, 1580614683944200), (193, 319008521814, 675600645196690),
  (237, 411979030463, 2248737169284160), (218, 84212090761, 671725272007700),
  (200, 243100846630, 1001824685144760), (199, 581238461796, 428978803566960),
  (214, 595026024979, 668080477730600), (192, 306285109033, 3276524665961580),
  (229, 168884404323, 1161443329373220), (185, 313072183492, 325330422216000),
  (246, 258151525126, 179525844372100), (187, 406797969837, 1457718472611980),
  (185, 96747889626, 260473591316800), (184, 146731725339, 143717561419860),
  (186, 255094700069, 318871514561460), (211, 423522784526, 1670307938715119),
  (196, 280582160764, 279669436760360), (198, 592372067560, 413338731516720),
  (238, 230957041178, 187955837475340), (224, 313550652378, 361328538405140),
  (223, 181801741599, 318421170619740), (199, 364983703995, 427197551355160),
  (181, 271721121316, 418669526145100), (184, 203051030984, 667417861670160),
  (182, 154431442810, 994705568153210), (179, 438762678121, 988677220006400),
  (181, 180044971979, 671783021870380), (190, 497714900529, 667058818804980),
  (247, 577972128678, 2942463423291600), (194, 590745451439, 670510329114740),
  (224, 561893896091, 22747613278900), (182, 277233344458, 688741040183680),
  (224, 194094757956, 822657883637840), (181, 461381081330, 336194806716680),
  (203, 524659800837, 758668155006440), (183, 523826533455, 657813207918100),
  (207, 88292186428, 1015690236013480), (232, 75375986797, 323294890276120),
  (179, 589794151802, 445225467180180), (177, 616223629155, 354731316399640),
  (177, 19292898030, 40167212175720), (173, 389814064100, 601999192661860),
  (172, 242933586666, 694430877677240), (201, 618392570315, 694783189512140),
  (183, 582189570737, 896243809625800), (189, 271231990816, 74299006053260),
  (172, 386810071059, 1002895082710020), (188, 522462530948, 212587740737920),
  (196, 188388569900, 503277809620220), (209, 578130707501, 334336393731080),
  (167, 626758992296, 1584986575174700), (189, 238894304278, 321259358336240),
  (208, 562485439431, 3117265064598300), (170, 107346401060, 2042657109242200),
  (183, 521160560654, 2783203821928320), (181, 219756653553, 1670304487984680)]

/-- `vsop87d_dict.py` 15121-15220. -/
def marsR0_7 : List (ℕ × ℕ × ℕ) := [
  (214, 166101921272, 2126552312652020), (165, 210517924574, 668827109009760),
  (172, 85495655009, 1459141182012140), (164, 168898542913, 346863127003720),
  (183, 156948199057, 896247260356240), (191, 554553650068, 280698930834210),
  (162, 406699160265, 520947182633600), (165, 344003333876, 1442183163698840),
  (163, 242152585351, 631400052443720), (189, 57681608522, 297338809773740),
  (169, 286190807726, 549030096152400), (174, 169333072403, 174449329471800),
  (224, 235886332922, 963894074787620), (207, 313737248079, 333668027343670),
  (221, 314807587279, 1161091017538320), (158, 587599422932, 460617990532620),
  (166, 461834424167, 917575444534820), (162, 540045489036, 2387843774780),
  (158, 557047764661, 450308713110760), (156, 308339691033, 344827595063840),
  (202, 256469307457, 732112213971360), (164, 110347159072, 371031224264020),
  (158, 365995745934, 699761672305620), (169, 185985317117, 132951209026000),
  (211, 166624816725, 330400706139560), (206, 181572746145, 159611913198180),
  (169, 46310427277, 1710121113690720), (159, 573384451559, 126556747862640),
  (159, 92643196778, 400184535348080), (189, 274163850920, 291049111747480),
  (181, 548699984659, 331927678623280), (156, 595462118470, 858466166590080),
  (158, 338732507447, 874204270747140), (171, 311406750626, 562191023351320),
  (199, 286370198218, 1002542770875120), (173, 473384838991, 938905354078620),
  (160, 306861532268, 161295133303160), (203, 171629299113, 69927114822760),
  (198, 56267868345, 1526588651930040), (186, 244573687199, 281485361486830),
  (167, 44417942260, 3789542629036740), (152, 508616610530, 332279990458180),
  (162, 258982908935, 188308149310240), (178, 458774508034, 668515700666270),
  (191, 412771141768, 991163095888000), (185, 432284898739, 32350541665740),
  (199, 183524172935, 343659165391760), (199, 600292619279, 442739591298580),
  (153, 346447669590, 2232490505670940), (171, 352256446633, 562177561290760),
  (165, 332970937124, 127268102562720), (149, 13370088791, 3602786667740),
  (149, 123280447264, 419380880845180), (156, 13018524921, 1192527409260060),
  (146, 124102730441, 337258473251660), (154, 563537863362, 318525933756840),
  (197, 323364188440, 377432416457660), (180, 347485722477, 856430634650200),
  (185, 218248214016, 80236392244620), (145, 262035460481, 336801398279660),
  (180, 601236697222, 669186151874940), (148, 251710178830, 326286188271590),
  (151, 417118896078, 1689451039961060), (185, 303939668350, 335483952070140),
  (143, 337267915445, 346856395973440), (160, 216705959730, 98032106820),
  (190, 163240538938, 232494940881560), (140, 127592043896, 654968289171320),
  (186, 144849264278, 101566301788420), (141, 419208049402, 581329118932200),
  (153, 597405255778, 356808855948880), (136, 45455359025, 319380074017620),
  (188, 98977442882, 253824850425360), (157, 332117477144, 318166890891660),
  (164, 167705754742, 275154759969160), (134, 526327877742, 1321288650966460),
  (184, 73082474043, 36969981594040), (145, 554086212771, 315268727893721),
  (139, 330464120245, 615151663465280), (132, 96753793729, 348742411322340),
  (148, 155321724063, 769688787128380), (140, 539000757800, 294598654164060),
  (155, 435207037526, 400536847182980), (142, 513441372991, 164133321019660),
  (131, 248606821423, 135339052800780), (131, 218754536881, 176576662541760),
  (133, 301300582040, 328371405176420), (177, 237558492362, 1134677862063940),
  (145, 79525636457, 228124775016280), (133, 596263652624, 3451326307268280),
  (165, 132559153826, 651055198278040), (132, 431118469609, 197195217385480),
  (176, 317539133688, 670158017279840), (140, 118723558164, 146105405194640),
  (128, 607261046225, 336246325602620), (139, 533541181199, 615155114195720),
  (143, 104060603784, 335165812696370), (138, 196009952022, 201462345478880),
  (127, 212310260285, 291753735417280), (142, 29094317859, 321266089366520)]

/-- `vsop87d_dict.py` 15221-15320. -/
def marsR0_8 : List (ℕ × ℕ × ℕ) := [
  (128, 49974456440, 1026456588407340), (125, 162548810323, 1019141746323240),
  (128, 355358985291, 322329255847960), (140, 587379732521, 638209845913040),
  (129, 290428606882, 681276681508600), (127, 403101399507, 1044843547097540),
  (128, 323265469000, 457668808702280), (124, 202283056331, 672494376570460),
  (134, 19295362623, 313083644961080), (145, 504767049759, 228121324285840),
  (143, 445744983982, 710070949727480), (133, 500404182123, 1188358313273480),
  (124, 73925895836, 148598012106520), (123, 47283015475, 334729609057390),
  (137, 573370922615, 524404923920100), (152, 501464455460, 335842494881780),
  (122, 137003015612, 337004193523580), (143, 195740753086, 292168802779920),
  (123, 394139290312, 495708687808040), (130, 90844304292, 342792063123960),
  (135, 356996218538, 322942578441220), (143, 530225767870, 1412824277124560),
  (134, 247836558803, 716719690618920), (150, 589116199733, 96697087743560),
  (123, 358787674774, 331876159737340), (153, 37199746202, 653314612897330),
  (145, 173326841661, 663750594109460), (133, 327553306809, 1187646958573400),
  (119, 515087396729, 1563656665630900), (117, 370999224131, 334315522398060),
  (115, 599541570797, 1198667590695340), (152, 566662339960, 653017718355670),
  (123, 5231448642, 980142463766060), (130, 142377926040, 1606316484718500),
  (120, 419579234337, 60484974070480), (126, 138788085609, 16958018313300),
  (122, 18785107006, 1884922754997420), (113, 467731144918, 2449142579258340),
  (122, 121803689218, 306793946934820), (118, 392389195187, 296323881878400),
  (137, 80076862963, 312379021291280), (124, 77274469912, 1246553441274220),
  (132, 473888023892, 226700340250900), (122, 366231014052, 875626980147300),
  (113, 374955221887, 2139354196985760), (153, 500596002145, 1590676412668260),
  (109, 146394078440, 285464037391020), (125, 600744459186, 144226120876020),
  (140, 64532646558, 1353202988993220), (108, 211691804278, 4371891230500),
  (130, 143185911960, 337010424500320), (133, 231239626151, 907266167112960),
  (107, 568864833782, 487885286267780), (116, 391262234002, 1190491877320180),
  (106, 199989592271, 349701314720220), (106, 579020088316, 148447270830),
  (105, 179751699456, 351730615683360), (130, 80396347034, 339751080163540),
  (107, 529449090921, 1063666534980), (137, 47037516401, 1357574880223720),
  (104, 503145022037, 175152227776380), (146, 257659804831, 330864012088300),
  (103, 329589452622, 437963903749020), (104, 77903634693, 175155678506820),
  (118, 411892224522, 1092729397676420), (106, 225714927822, 1320702930736500),
  (126, 110289326962, 668079497027290), (105, 141449747957, 1008121114201300),
  (110, 616072219971, 333806962941900), (113, 61947991056, 1342182356871280),
  (139, 221345603147, 195471715036360), (102, 381767069895, 667017915313570),
  (101, 344583422545, 150528780909299), (105, 246134952447, 552586369599260),
  (119, 564454862995, 842571814811760), (101, 187446179141, 916152735134660),
  (111, 546183253107, 721443893684320), (123, 14056284625, 1648976303806100),
  (128, 452525697, 218525126929280), (106, 620225179330, 371798603461560),
  (99, 170554147455, 165556030419820), (100, 176373681853, 300236972771680),
  (101, 55693458655, 333715661865360), (101, 56441794685, 3077450164257480),
  (98, 193983799659, 556246906129680), (130, 565255471249, 273576268599500),
  (125, 618575288406, 969833186344200), (100, 235767934317, 333707205469860),
  (100, 376317527562, 334415279870100), (105, 533897491215, 509608411137890),
  (103, 124189801298, 138589527633620), (101, 142727612221, 3745572649597440),
  (96, 255328478399, 446648176580340), (97, 586779127410, 522017080145320),
  (101, 261513508379, 1685841522263039), (107, 423943588615, 882386715152580),
  (100, 438845221965, 333710656200300), (100, 173240240188, 334411829139661),
  (101, 351764169063, 469400295470760), (96, 316895015703, 1282564519470380)]

/-- `vsop87d_dict.py` 15321-15420. -/
def marsR0_9 : List (ℕ × ℕ × ℕ) := [
  (101, 624060604565, 294253073359440), (103, 109500325425, 1208976868117200),
  (106, 557931664756, 3904832250960720), (126, 340521738550, 668165473652630),
  (105, 252404371984, 175506264976500), (115, 610031030713, 314564104223920),
  (92, 506385191401, 508510572141780), (97, 111670836674, 334179306935190),
  (92, 583209800268, 668270932610790), (121, 239411154886, 1820834994259200),
  (110, 251677822824, 104515483618760), (91, 107173725022, 92783996850280),
  (96, 360155667418, 1336343002786740), (97, 534224904711, 763646637799920),
  (94, 120811080231, 949566943335380), (90, 417568982529, 6731030280),
  (97, 320862890174, 529833750655300), (92, 320029831258, 440351747523800),
  (90, 379900428724, 68504405422600), (101, 212778329280, 1005028646756720),
  (98, 389390262307, 237364154926420), (90, 449046504054, 645374872061060),
  (96, 513129666936, 779286709850160), (89, 451228904794, 1003708975128440),
  (98, 65689906709, 281098877190800), (114, 415908543927, 909047419324760),
  (94, 478960145866, 3570771008290740), (87, 626525215858, 3455481386366760),
  (87, 150181194995, 998370424446160), (87, 143790822626, 948862319665580),
  (90, 279573736864, 4747756377607380), (94, 568919291448, 610688005506480),
  (87, 74049208991, 4199078593289880), (101, 99308133443, 661473744448520),
  (115, 349732055752, 450343941720), (86, 18628425275, 21682221378700),
  (99, 106539589813, 281085415130240), (87, 302856210899, 721802936549500),
  (85, 458476007089, 169927921650320), (88, 447996444588, 2195768072774700),
  (106, 612011880730, 481947900076420), (89, 388600719587, 1219997500239140),
  (97, 270091698598, 333943178404770), (118, 102739527200, 3411511406927460),
  (101, 36591831115, 294239611298880), (84, 566081869654, 116958825140860),
  (86, 191214909013, 5551641870984820), (84, 430909434949, 415008989614680),
  (94, 136645151323, 909399731159660), (97, 226544245706, 1336146938573100),
  (99, 116054562056, 12801884333740), (94, 110573952457, 459144262300060),
  (92, 74386387542, 484590023579280), (101, 151570299040, 780709419250320),
  (96, 102187746571, 289978714182220), (86, 66787658068, 295773314812880),
  (87, 349676189640, 406175165790600), (95, 335452781355, 66123292678100),
  (87, 4840436087, 2354675362303080), (114, 283270741566, 39462588505920),
  (81, 344420073782, 14807872442630), (81, 127062968985, 489307995667940),
  (83, 548462687348, 434916189758320), (105, 347842036130, 341390955255880),
  (84, 433209852801, 5144932426327820), (93, 159775582035, 508821980485270),
  (88, 329950478012, 265550106217100), (81, 165543714666, 7826370942472259),
  (86, 119342535692, 402924690957760), (79, 441964678009, 15104766984290),
  (84, 196289182788, 1486773751589219), (91, 576229906142, 254433167353560),
  (86, 378659802914, 148140937134520), (82, 285633413428, 1416481362924540),
  (78, 429426812598, 18792514776260), (78, 538566529072, 265556837247380),
  (84, 215121245434, 331112060839640), (78, 201651247942, 912492198604240),
  (83, 428280129037, 7492309699802278), (77, 145903147715, 254438173018620),
  (81, 362204400197, 1230659089495900), (100, 133498371324, 927884721956680),
  (89, 262080312892, 2434152831745660), (98, 378877505378, 319843379966360),
  (81, 434306418828, 1017719036923080), (80, 580054348103, 275101515718000),
  (92, 280228448795, 370783675566220), (82, 245812896240, 981565173166220),
  (76, 303616461584, 999338809263160), (76, 392674885488, 291008208256070),
  (76, 320004040720, 773349323658800), (98, 328574616663, 328933208883739),
  (77, 205948930010, 1292873796892240), (75, 85784191736, 2863890558114660),
  (78, 29690749181, 1065462101941260), (101, 72388999452, 4882743118573260),
  (85, 519438010130, 214614816282300), (83, 442475849926, 206081785407180),
  (75, 519097428778, 105544977692610), (96, 624132708357, 1104570026390)]

/-- `vsop87d_dict.py` 15421-15520. -/
def marsR0_10 : List (ℕ × ℕ × ℕ) := [
  (74, 337882325472, 800616619393960), (101, 95332927487, 818651266249260),
  (92, 96173005100, 15189728108520), (74, 222716630210, 27267295735160),
  (92, 556705883046, 2787358901026800), (91, 373152787182, 254429716623120),
  (84, 41493230617, 429690158267040), (74, 509669613096, 975523023837760),
  (78, 179565224435, 356495722240170), (75, 458345774133, 915390361602180),
  (74, 388658218247, 2529829315444680), (85, 531472029744, 471638622654560),
  (74, 146907693289, 1152712508919240), (101, 294847804254, 1203293761653920),
  (72, 24413748615, 132494134054000), (78, 17721609024, 339189276456221),
  (73, 165072742864, 545226274007740), (73, 491730083470, 1078763034454580),
  (73, 328285909319, 883091338822380), (81, 546340742050, 385607629779280),
  (73, 461913155968, 328835211178700), (96, 571767221046, 20670073729660),
  (80, 447918417138, 1229954465826100), (71, 498130328330, 1294296506292400),
  (73, 286057567032, 496060999642940), (72, 514120362338, 466555376723980),
  (76, 928867041, 653441316687600), (90, 538224594245, 212581009707640),
  (85, 94196641948, 214618267012740), (96, 68069708134, 1000658480891440),
  (73, 106048379839, 386678027344540), (72, 84342376295, 333454651107000),
  (91, 512701600437, 339287274161260), (76, 596038992872, 348279105373600),
  (90, 146230169383, 509216921176800), (71, 116745785331, 157484580128220),
  (72, 386137692169, 1676243599541260), (70, 7310763691, 1283987228870540),
  (73, 11725123446, 1050780933288900), (81, 586817748181, 349596551583120),
  (71, 207963275673, 106331408345230), (68, 330993028662, 410640549114620),
  (69, 33467954461, 552292430740), (68, 156404561711, 239855036473080),
  (90, 261953849393, 334667834232960), (68, 106108185791, 19138095580880),
  (77, 87794040199, 291794638908690), (67, 29712068423, 1201258229714040),
  (67, 255451787747, 1156719126307820), (83, 182578570364, 351128529731900),
  (68, 268247854175, 2021325474333179), (86, 279273636804, 36722432896240),
  (86, 81171860574, 20977597708900), (67, 528035928877, 896638750317330),
  (67, 20258020424, 2743388921587499), (71, 276410148218, 1565079375031060),
  (90, 71593793107, 345179906898740), (67, 618148420146, 396628261901220),
  (74, 361959120765, 706410413197060), (68, 269550405031, 1272545343477500),
  (74, 124854309783, 802756914470940), (84, 247006028699, 373874417645580),
  (77, 589874180572, 430758330413540), (67, 33285041428, 1964552555679060),
  (83, 379134493696, 247267876262220), (64, 43216125634, 199426813539000),
  (71, 65707804543, 86030992875280), (64, 98960038205, 337617516116840),
  (70, 96227192685, 842883223155250), (66, 65425879867, 821946528937760),
  (70, 436060455306, 843669653807870), (84, 450083253887, 373877868376020),
  (73, 569670871544, 1468739104733920), (71, 36334330253, 261947319549360),
  (80, 585771861744, 774772033058960), (68, 306409889136, 844699147881720),
  (66, 107137364271, 198722189869200), (61, 371171429905, 105585881184020),
  (79, 6487001849, 628659896834040), (75, 154177744365, 105939918384140),
  (61, 147350010728, 168505212250160), (61, 46897959303, 172766109366820),
  (64, 211869877898, 330504969223120), (60, 117940250396, 9767038771289718),
  (60, 513953821352, 189833396428740), (64, 404058406722, 394546216740460),
  (63, 520562384814, 2460613555322000), (61, 55428968913, 708289697515680),
  (75, 481208819076, 2729924421193320), (59, 175511446129, 1208265513417120),
  (61, 588333855610, 690163749583840), (74, 346408580786, 1455689671702380),
  (74, 440649822049, 936060435331840), (58, 422827613192, 453153631857540),
  (80, 214103357856, 791730051372260), (75, 185618011420, 5256619261584059),
  (75, 515830659680, 4588496776244100), (68, 206915254754, 895852319664710),
  (56, 377847713307, 29912639426920), (62, 225564130818, 975875335672660)]

/-- `vsop87d_dict.py` 15521-15538. -/
def marsR0_11 : List (ℕ × ℕ × ℕ) := [
  (59, 268657637673, 628305859633920), (56, 554148283448, 1328618363552360),
  (56, 389200811600, 896238803960740), (63, 207254352069, 759379509706520),
  (61, 431994402891, 470927267954480), (75, 579419108898, 105936467653700),
  (56, 18569912415, 776800833968560), (59, 549627068572, 732210246078180),
  (64, 395992112220, 305012694723020), (55, 219506741266, 704623669800),
  (57, 405252695300, 393020969621960), (75, 399788100837, 548325472482600),
  (60, 461703903739, 699050317605540), (73, 420362525534, 2115081336588360),
  (66, 282009591985, 877100708379860), (54, 38782719267, 36011078196160),
  (59, 471734799803, 628309310364360), (68, 574655335863, 98774627292800)]

/-- `vsop87d_dict.py` 14420-15539. -/
def marsR0 : List (ℕ × ℕ × ℕ) := List.flatten [
  marsR0_0, marsR0_1, marsR0_2, marsR0_3, marsR0_4, marsR0_5, marsR0_6, marsR0_7, marsR0_8, marsR0_9, marsR0_10, marsR0_11]

/-- `vsop87d_dict.py` 15541-15640. -/
def marsR1_0 : List (ℕ × ℕ × ℕ) := [
  (1107433340, 203250524950, 334061242669980), (103175886, 237071845682, 668122485339960),
  (12877200, 0, 0), (10815880, 270888093803, 1002183728009940),
  (1194550, 304702182503, 1336244970679920), (438579, 288835072628, 228123049651060),
  (395698, 342324611291, 334413554504880), (182572, 158428644001, 254431441988340),
  (135850, 338507017993, 1670306213349900), (128204, 62991220570, 105938193018920),
  (127068, 195389775740, 79629800681640), (118443, 299761345074, 214616541647520),
  (128362, 604343360441, 333708930835080), (87537, 342052758979, 39814900340820),
  (83026, 385574986653, 373876143010800), (75598, 445101839349, 615153388830500),
  (71999, 276442180680, 52969096509460), (66542, 254892602695, 175153953141600),
  (54314, 67750943459, 896245534991020), (51035, 372585409207, 668474797174860),
  (66430, 440597549957, 174801641306700), (47863, 228527896843, 291401423582380),
  (49428, 572959428364, 334059517304760), (49424, 147717922226, 334062968035200),
  (57518, 54354327916, 119444701022460), (48318, 258061691301, 314916416058820),
  (36384, 602728752344, 318519202726560), (37176, 581439911546, 134986740965880),
  (36036, 589508336048, 333349887969900), (31115, 97832506960, 19144826611160),
  (38953, 231900090554, 413691043351620), (27244, 541367977087, 159259601363280),
  (24300, 375843924498, 15542039943420), (22804, 174830773908, 508862883976680),
  (22324, 93932040730, 95171840625060), (21708, 383571581352, 628307584999140),
  (21304, 78049229782, 158907289528380), (21631, 456895741061, 353206069281140),
  (17956, 421930481803, 387030339179440), (18237, 41328624131, 548677784317500),
  (16251, 380760134974, 334054511639700), (16803, 554857987615, 309788382272579),
  (16850, 453690440252, 429233083295040), (15755, 475736730681, 949214631500480),
  (15746, 372356090283, 2004367456019880), (20428, 313540712557, 469047983635860),
  (14699, 595325006816, 389418182954220), (16251, 339910907599, 334067973700260),
  (14259, 399897353022, 199074501704100), (16528, 96752074938, 439999435688900),
  (13010, 514230107067, 667770173505060), (12492, 103211063742, 334159274776800),
  (16463, 353882915214, 270071514038580), (16171, 234870953554, 55356940284240),
  (13169, 41461716663, 561472937620960), (11272, 102375627844, 1230306777661000),
  (12408, 623142869816, 562895647021120), (12747, 69046314049, 372350895892300),
  (11827, 625283898676, 227411694950980), (10384, 123257236014, 42659819087600),
  (11208, 131750963435, 349603282613400), (10345, 90062464690, 453505943692440),
  (12215, 422316056098, 707937385680780), (9765, 345310940204, 38289653222320),
  (8586, 116471901139, 278704302385740), (7879, 573808861790, 228834404351140),
  (9195, 181689739851, 668124210705180), (7751, 415046998466, 604132756708560),
  (9195, 606945250657, 668120759974740), (9026, 258210941053, 238889402044920),
  (6771, 23987737854, 1177337681151540), (7087, 351414944377, 803109226305840),
  (9159, 390158590550, 355391152213780), (6702, 425572879119, 24272860397400),
  (7232, 370287400141, 281803500860600), (6546, 4353472459, 295771589447660),
  (8781, 219735028572, 122184856632140), (6540, 211834687923, 842924126646660),
  (6836, 404512263654, 1002536039844840), (7280, 426943100715, 280380791460440),
  (7676, 100782250264, 843276438481560), (5732, 313956241764, 21329909543800),
  (5344, 378220670098, 509215195811580), (5991, 296408254428, 648977658728800),
  (5132, 398288453952, 711354700080), (6261, 190346469972, 562184292321040),
  (5241, 267093795050, 747752286021600), (6261, 160056695152, 334772597370060),
  (6526, 276281601349, 333963210563160), (4591, 181986278078, 281092146160520),
  (5460, 460874445963, 358334103067380), (4733, 90560026340, 509926550511660),
  (5486, 491408093456, 763294325965020), (4004, 414067157211, 962368827669120),
  (3837, 3343295627, 723479425624200), (3621, 576532393672, 493320844033260),
  (3747, 8778985966, 652580445396540), (3016, 373838855125, 668129216370240),
  (3975, 491288592965, 294246342329160), (3911, 67451768877, 312731333126180)]

/-- `vsop87d_dict.py` 15641-15740. -/
def marsR1_1 : List (ℕ × ℕ × ℕ) := [
  (3923, 307703531632, 352311834900), (3944, 53974754515, 588492684658320),
  (2901, 466281989264, 721091581849420), (2803, 100530177454, 706412138562280),
  (3153, 454673175664, 248741604494780), (2784, 5495331967, 63989728631400),
  (2759, 517099857257, 582802847164760), (3017, 414668877243, 668115754309680),
  (2999, 82918667275, 508503841111500), (2677, 69427974692, 269973481931760),
  (3023, 259489020298, 290690068882300), (2596, 108693013783, 492968532198360),
  (3126, 100027692782, 211876386037840), (2598, 501195749912, 1001831416175040),
  (2606, 534420770679, 1097355568635000), (2779, 398358744953, 646792575796160),
  (2460, 152653571249, 683664525283380), (2382, 393610586965, 1137170468975820),
  (2590, 508892664109, 1283275874170460), (2201, 18880589605, 959523908922340),
  (2128, 569450469171, 319104922956520), (2065, 354133174600, 106649547719000),
  (1868, 501592531810, 347567750673520), (2081, 130274459220, 774060678358880),
  (1830, 568365327697, 331983703120740), (2022, 616092328060, 174442598441520),
  (1708, 221675931288, 292112778282460), (1836, 616477009621, 842565083781480),
  (2060, 624041853265, 667411130639880), (1735, 458243571826, 1041998628350760),
  (1852, 136883022935, 1564368020330980), (1689, 192829590736, 376721061757580),
  (1954, 46215988899, 1057540668294180), (1800, 230913343660, 335586489788480),
  (1444, 215042616899, 1002185453375160), (1760, 587267582299, 332025710730100),
  (1845, 406123235448, 2338428698689860), (1423, 465085713203, 456246099302120),
  (1410, 150438410845, 332535995551480), (1444, 11969993808, 1002182002644720),
  (1443, 55828572929, 1511398923821520), (1334, 125483731308, 787567186362420),
  (1442, 138958943728, 668220517446780), (1606, 434241260905, 533135744374080),
  (1377, 14791683820, 175865307841680), (1282, 578533014319, 1458429827312060),
  (1281, 135125896423, 1040473381232260), (1471, 34649469321, 896956889691100),
  (1245, 602681709446, 326434635542420), (1234, 188341938354, 1017725767953360),
  (1552, 592727420332, 843987793181640), (1182, 418100226016, 336096774609859),
  (1333, 186551437099, 69215760122680), (1189, 89892514263, 1391601910964160),
  (1192, 430473818946, 689452394883760), (1145, 15197504252, 313442687826260),
  (1299, 144631688592, 625462666252360), (1494, 154417907271, 336138782219220),
  (1054, 67591855339, 334420285535160), (1210, 85117132607, 312019978426100),
  (1061, 13258232364, 52257741809380), (1003, 128021784912, 456957454002200),
  (1012, 577497169905, 1431416811304980), (1169, 299767730172, 624751311552280),
  (1062, 25467691252, 333702199804800), (1032, 569833683620, 53680451209540),
  (1082, 258016159997, 626174020952440), (867, 150283829131, 612765545055720),
  (953, 292377030638, 572950644714900), (887, 528743574972, 1021328554621100),
  (1108, 284339171890, 64087760738220), (861, 321491381593, 391495722503460),
  (1069, 49400181869, 1124368584642080), (800, 464154002129, 614442034130420),
  (799, 333215212691, 983038901398780), (1046, 405907877700, 615864743530580),
  (743, 493337997290, 323040610548040), (740, 301511102229, 1081813528691580),
  (716, 252567242762, 520235827933520), (705, 439344403231, 980853818466140),
  (786, 172357089999, 317814579056760), (719, 38924465445, 629832832117640),
  (717, 623927283856, 336906161416760), (704, 196763488855, 668833840040040),
  (882, 210339285493, 230158581590939), (913, 230662326829, 1351787010623340),
  (914, 436610748804, 1336597282514820), (659, 340905557071, 164844675719740),
  (828, 213305589137, 790307341972100), (652, 597050449428, 57434479833480),
  (688, 402232587894, 105226838318840), (709, 224658423912, 922553927328300),
  (590, 67418318613, 895534180290940), (604, 273550395152, 1685848253293320),
  (785, 358704322751, 269360159338500), (570, 411146135269, 603421402008480),
  (624, 445415856101, 1296430070339100), (563, 372383942144, 1311972110282519),
  (547, 304142188931, 270782868738660), (536, 465546776421, 13506508003540)]

/-- `vsop87d_dict.py` 15741-15840. -/
def marsR1_2 : List (ℕ × ℕ × ℕ) := [
  (680, 362640859214, 604844111408640), (535, 332503801413, 977910867612540),
  (615, 31792697641, 791018696672180), (506, 124339056369, 455534744602040),
  (633, 132124830132, 264845482547300), (671, 288173567087, 331673398895200),
  (570, 494522781693, 692395345737360), (489, 48479532469, 1293585151592320),
  (490, 157712746955, 16246663613220), (492, 408592823251, 1002190459040220),
  (468, 450628939729, 238432327072920), (462, 130653882308, 1725663153634140),
  (444, 520556841675, 1335892658845020), (511, 529436707935, 85319638175200),
  (458, 552316111365, 643849624942560), (443, 437626774329, 1216800269657460),
  (429, 406329082027, 14956319713460), (502, 612188881856, 827382086703240),
  (420, 351990468754, 916864089834740), (452, 15931716927, 789595987272020),
  (401, 93276882765, 43371173787680), (491, 449372643902, 1002176996979660),
  (390, 126790524143, 545937628707820), (460, 356765356005, 159618644228460),
  (514, 414617297678, 1646033352952499), (510, 212338136542, 333508950239240),
  (365, 84035244694, 336449086444760), (444, 42154996651, 986641688066520),
  (380, 274315160117, 334449376205780), (355, 220831807719, 551875014899180),
  (374, 93920520997, 386318984479360), (380, 60825828556, 398050971301380),
  (366, 145297694305, 103902661079040), (458, 501867719021, 1055152824519400),
  (352, 559661824792, 1606218452611680), (361, 543698827477, 1123657229942000),
  (323, 325474887566, 311626763099790), (396, 543635200834, 1617337116840440),
  (316, 510862851689, 1739521973472580), (325, 459103320065, 1980094595622480),
  (320, 10022132590, 169216566950240), (313, 476509182263, 330458456002240),
  (329, 351515201342, 190343681250120), (361, 140179572820, 827029774868340),
  (380, 111278812152, 350307906283200), (309, 163585786252, 1108121921028860),
  (304, 627804875103, 239143681773000), (336, 295777936427, 668024453233140),
  (299, 48751113813, 334765866339780), (327, 319951479738, 398149003408200),
  (298, 426967988388, 1393679450513400), (309, 505775078180, 1272157209941700),
  (310, 610243075443, 1792491069982040), (290, 452880846817, 572493569742900),
  (279, 430091602167, 360721946842160), (293, 190646493379, 670200024889200),
  (375, 537146136739, 337664029337720), (268, 493796347898, 1376059871020740),
  (269, 563342755549, 403277002792660), (361, 470448724123, 938095967271720),
  (285, 437639190605, 604034724601740), (305, 360878132297, 725556965173440),
  (265, 582002998533, 121473501932060), (246, 348844723382, 323751965248120),
  (339, 605128485092, 666044945790720), (325, 512798981834, 1125079939342160),
  (243, 48346700024, 1336243245314700), (246, 441923388458, 354679797513700),
  (239, 373073204843, 7626607127560), (239, 627709788173, 196483862685400),
  (242, 251411096474, 1336246696045140), (238, 461745673345, 1727740693183380),
  (232, 313987850882, 2019909495963300), (245, 388310965561, 440710790388980),
  (242, 307232693388, 1256615169998280), (277, 388618268628, 1059618207843420),
  (277, 614459469980, 1940279695281660), (222, 220253799065, 710782304427560),
  (218, 137621606096, 341539402526710), (297, 378408680173, 276626762836500),
  (264, 535345322905, 681628993343500), (213, 110915354432, 1900464794940840),
  (213, 460032427636, 397339616601300), (230, 439356021431, 2672489941359840),
  (202, 60981942427, 667763442474780), (268, 505058237041, 938193999378540),
  (199, 134402137469, 832967161059700), (198, 508527311506, 582091492464680),
  (201, 5002970566, 1178049035851620), (199, 266187512344, 669647732458460),
  (227, 169939961119, 1898429263000960), (217, 471565260831, 867196987044060),
  (199, 66532566162, 1566403552270859), (201, 390133282111, 26660704172180),
  (242, 76562027191, 328123856478620), (254, 607712146530, 1405460730802600),
  (193, 608798590746, 898281066930900), (202, 112506176909, 668481528205140),
  (212, 41763591084, 573204924442980), (191, 63315794517, 301710701004240)]

/-- `vsop87d_dict.py` 15841-15940. -/
def marsR1_3 : List (ℕ × ℕ × ℕ) := [
  (184, 568898048651, 564219824260920), (180, 460366258431, 1023513637553740),
  (198, 101742381306, 333673109134180), (207, 80702499658, 387741693879520),
  (202, 161753574776, 1121628429032400), (177, 20305783491, 2274340937951640),
  (181, 617864681592, 488596640967860), (228, 90779655425, 1845460166491500),
  (165, 397299091423, 2035531939880), (206, 358770221682, 320554734666440),
  (185, 277088436060, 22041264243880), (163, 569068383, 143717561419860),
  (185, 623128875160, 666086953400080), (164, 464548469502, 325330422216000),
  (210, 485590304986, 561831980486140), (226, 176563729092, 562536604155940),
  (163, 67931390118, 1231018132361080), (211, 151278040364, 403988357492740),
  (177, 214779710666, 334613535100720), (154, 333525296567, 907011887384880),
  (178, 165162116131, 1071399488132620), (156, 612783235584, 10309277421860),
  (155, 351854579269, 737338245462640), (157, 491614155659, 1550861512327440),
  (191, 174459210202, 1002281760116760), (178, 353665589741, 53321408344360),
  (154, 264640687885, 333356619000180), (162, 127235392680, 541565737477320),
  (144, 130886254982, 646081221096080), (173, 376291627342, 356102506913860),
  (144, 86629692094, 738049600162720), (150, 23529641094, 122896211332220),
  (144, 12285484149, 64701083331480), (160, 24157324936, 1161443329373220),
  (146, 476067886088, 1670658525184800), (188, 296688973732, 217813772229200),
  (175, 166915420767, 2234526037610820), (141, 175571255457, 365700429635640),
  (145, 71777671857, 678431762761820), (138, 274151377335, 654615977336420),
  (139, 412056692213, 335124909204960), (152, 488528890547, 11020632121940),
  (134, 86682710306, 360369635007260), (170, 554401695608, 326583082813250),
  (165, 274557093704, 467266731424060), (129, 94520493983, 41948464387520),
  (167, 343007767272, 158195934828300), (136, 368877945956, 1317100144068760),
  (160, 68321924763, 647503930496240), (129, 446548223743, 949925986200560),
  (144, 188085102951, 946826787725700), (149, 349118810274, 1415874771361560),
  (138, 192770959208, 1525247118500), (172, 23189971635, 1232342309600880),
  (121, 175813513715, 437963903749020), (120, 604299490267, 660644325483230),
  (134, 198845453946, 896597846825920), (118, 22641710036, 1176626326451460),
  (122, 292219895926, 2194711137270000), (147, 586576524955, 316993955608060),
  (121, 575886629308, 1951398359510420), (119, 393419985914, 493679886898440),
  (123, 465853055862, 1314915061136120), (151, 438870879458, 1336251701710200),
  (134, 449208622602, 248030249794700), (115, 578268772131, 1272255242048520),
  (126, 443971496486, 356808855948880), (114, 36704570747, 338433133900480),
  (117, 67607782416, 1320702930736500), (124, 580386208894, 1072110842832700),
  (115, 23672592056, 22434479570190), (110, 26402316132, 307752850332700),
  (112, 350979462224, 137577379984580), (108, 530086016687, 1026456588407340),
  (146, 236972522432, 498905918389720), (143, 92798026058, 540143028077160),
  (111, 247771615302, 1860649894600020), (124, 113870545502, 280739834325620),
  (105, 587122793977, 419380880845180), (115, 301754571849, 111875579210280),
  (107, 203274473347, 2568587280280800), (107, 482345245872, 1336238239649640),
  (105, 121018340855, 858466166590080), (104, 507527834174, 2314155838292460),
  (100, 408698733114, 351128529731900), (105, 113833234280, 116247470440780),
  (102, 255243872323, 66475604513000), (138, 304361079523, 332997576135000),
  (130, 304769575195, 334103250279340), (117, 297177407391, 960235263622420),
  (98, 454292546461, 336246325602620), (97, 221618504638, 1004261267559180),
  (100, 545541648580, 302422055704320), (97, 155448890675, 879998871377800),
  (107, 515001764390, 95628915597060), (100, 180839732601, 666597238221460),
  (104, 4641040148, 1000106188460700), (97, 30502193916, 1001472373309860),
  (125, 371144870102, 387382651014340), (102, 538933965862, 1389214067189380)]

/-- `vsop87d_dict.py` 15941-16040. -/
def marsR1_4 : List (ℕ × ℕ × ℕ) := [
  (108, 433438895790, 349017562383440), (95, 232591017464, 1002895082710020),
  (113, 174323945160, 1161091017538320), (119, 494578003013, 344370520091840),
  (96, 163239207663, 1192527409260060), (124, 82697196609, 963894074787620),
  (101, 151065535085, 106290504853820), (107, 436653716080, 653166165626500),
  (90, 201534774170, 2232490505670940), (94, 485202869277, 1404749376102520),
  (89, 123714034226, 2080946762464520), (95, 569916785631, 671725272007700),
  (95, 215038299943, 801327974094040), (111, 391313035726, 331118291816379),
  (89, 137925538521, 7478159856730), (94, 324872875047, 665734641565180),
  (89, 70324117212, 2387843774780), (87, 40376031248, 222185663459700),
  (92, 333165786190, 254079130153440), (120, 309344469205, 668510618875760),
  (87, 492694309070, 150528780909299), (91, 166121998822, 2415008005134500),
  (90, 547687082598, 1669953901514999), (119, 253709230647, 331216323923200),
  (118, 556523997231, 281444457995420), (93, 161394240489, 334104230982650),
  (84, 119439840758, 345081874791920), (85, 495060410388, 731400859271280),
  (84, 392244493446, 17067287061920), (96, 549205832489, 342792063123960),
  (106, 161703818023, 377432416457660), (101, 618535119914, 551163660199100),
  (81, 316562241132, 5217580628314840), (93, 515512549422, 345179906898740),
  (108, 33314004399, 670967404086740), (78, 238080208142, 1355389797291080),
  (85, 118588430640, 670510329114740), (98, 324856024758, 2528772379939980),
  (80, 254327778068, 667570192909220), (78, 470533248161, 2488957479599160),
  (95, 159916172961, 427197551355160), (76, 90799171644, 267585638156980),
  (91, 380728044706, 212587740737920), (93, 559480359619, 334018254357310),
  (95, 206299921822, 651875821726740), (100, 602550501045, 331321087060300),
  (75, 616095890090, 337004193523580), (77, 492444879515, 322942578441220),
  (90, 455063359845, 670158017279840), (78, 201202524407, 1442183163698840),
  (79, 592142974185, 615505700665400), (101, 207923317336, 1526588651930040),
  (82, 604078010866, 376009707057500), (73, 301106366205, 20618554843720),
  (78, 171095661489, 339998628861340), (73, 332824316241, 958812554222260),
  (76, 174030672711, 675600645196690), (73, 144980946324, 540854382777240),
  (77, 564501410813, 320907046501340), (80, 570272305344, 1015690236013480),
  (75, 383222347813, 3904832250960720), (72, 82629826575, 736626890762560),
  (83, 471804515025, 1406172085502680), (72, 435767091893, 2154896236929180),
  (86, 150107043029, 598906725217280), (73, 377377582806, 2862833622609960),
  (82, 78740181090, 1627646394262300), (70, 269225539304, 329689351439480),
  (69, 101941228196, 1229595422960920), (81, 464227979982, 694783189512140),
  (94, 74502278458, 524404923920100), (67, 447328871650, 2020614119633100),
  (91, 295968633697, 332638533269820), (76, 286128350856, 854297070603500),
  (65, 131079130285, 2354675362303080), (65, 331422850411, 641461781167780),
  (64, 398415414793, 336801398279660), (65, 415810281695, 334019235060619),
  (71, 382044323862, 657813207918100), (80, 102128994578, 732112213971360),
  (64, 107965886113, 694430877677240), (64, 120215520018, 3813303563780),
  (70, 511166911478, 948503276800400), (67, 222216014849, 484590023579280),
  (83, 186067842148, 93136308685180), (63, 45029141698, 641814093002680),
  (62, 568207205878, 445936821880260), (62, 62454636835, 668827109009760),
  (76, 41820625869, 503277809620220), (62, 572811519809, 200855753915900),
  (60, 198790201827, 1219997500239140), (78, 218035217615, 323294890276120),
  (60, 108971396071, 1012493005431800), (72, 408555524166, 341687849797540),
  (61, 249066420507, 400536847182980), (59, 293755144370, 988677220006400),
  (69, 102371083242, 662185099148600), (61, 457446273568, 227770737816160),
  (59, 474745481720, 1686552876963120), (69, 362576981720, 1590676412668260)]

/-- `vsop87d_dict.py` 16041-16136. -/
def marsR1_5 : List (ℕ × ℕ × ℕ) := [
  (58, 415993379336, 185463230563460), (60, 492798256747, 339189276456221),
  (70, 451699340219, 1630491313009080), (56, 359354639280, 732210246078180),
  (68, 81217091970, 1670304487984680), (56, 319997567622, 414043355186520),
  (58, 173479637157, 240924933984800), (54, 554310937490, 260473591316800),
  (59, 202922256380, 4548681875903279), (63, 529505507594, 1710121113690720),
  (54, 488230660750, 4830016010269000), (71, 484381041200, 328933208883739),
  (54, 176917054114, 351019260983280), (63, 280175814276, 1689451039961060),
  (58, 91631357427, 1001824685144760), (54, 106826755543, 894822825590860),
  (72, 136121375974, 1002542770875120), (61, 92427393171, 1746885519794540),
  (68, 284271358352, 1670307938715119), (53, 342679182927, 1486773751589219),
  (54, 41070672545, 1845107854656599), (60, 586922287544, 744701791784600),
  (51, 164684042106, 347215438838620), (57, 613250399703, 1708595866572220),
  (53, 416969434701, 610688005506480), (50, 317196717347, 211165031337760),
  (55, 572607545560, 1070688133432540), (62, 57333106196, 317103224356680),
  (53, 129007833025, 665277566593180), (50, 296441858632, 1003708975128440),
  (65, 511165617529, 311313629391080), (53, 487447079015, 148598012106520),
  (50, 252848298042, 1044843547097540), (59, 169623653028, 402565648092580),
  (47, 515559748285, 1201258229714040), (49, 119473362353, 344827595063840),
  (63, 101191427607, 1176985369316640), (64, 386219786087, 1820834994259200),
  (59, 296261275062, 1407143950907579), (49, 141657179779, 293894030494260),
  (48, 295878690387, 1152712508919240), (52, 1971915447, 822657883637840),
  (45, 507966377852, 331876159737340), (43, 123879381294, 721802936549500),
  (58, 558121433163, 664309181776180), (48, 502446939402, 664519698672220),
  (43, 69492704598, 2099539296644940), (44, 402272101657, 938905354078620),
  (55, 438138154697, 147886657406440), (51, 424292455428, 79277488846740),
  (42, 274826708762, 1457718472611980), (44, 418397905503, 853585715903420),
  (47, 133588473182, 63278373931320), (42, 505676915852, 339751080163540),
  (42, 28204510006, 1000148196070061), (42, 75310918544, 635771943674220),
  (42, 494532732982, 1805292954315780), (52, 409912687749, 583514201864840),
  (54, 246533302314, 818651266249260), (43, 477713978044, 3212436905223359),
  (53, 608293348275, 337721779200400), (41, 251168269556, 418669526145100),
  (41, 124482327948, 321259358336240), (41, 542003026893, 68504405422600),
  (41, 504768364997, 657101853218020), (42, 208904552145, 1336343002786740),
  (48, 482888746454, 183532461760680), (43, 417203713456, 4334065334255760),
  (46, 81640935106, 4588496776244100), (42, 226773068307, 1272966596748600),
  (39, 585791936573, 84608283475120), (43, 290976420757, 687267311951120),
  (45, 198725045807, 186174585263540), (45, 50053853542, 1412824277124560),
  (46, 286512929328, 3865017350619900), (38, 365846461938, 2969828751133580),
  (39, 457679716458, 690163749583840), (39, 385504465583, 994557120882380),
  (40, 6127203284, 994705568153210), (43, 528854105201, 327412501778540),
  (47, 625707790441, 2460613555322000), (37, 502115296017, 1112897608578420),
  (39, 171421919870, 769688787128380), (37, 434652985120, 328371405176420),
  (37, 5572748092, 2115081336588360), (42, 497872041460, 1357574880223720),
  (50, 424170332288, 774772033058960), (37, 407496312186, 864606348025360),
  (38, 44080908793, 2449142579258340), (36, 173681874925, 346863127003720),
  (41, 569294900686, 2608790314157420), (36, 180256389689, 875626980147300),
  (36, 337374689465, 4842928218232440), (35, 10555289345, 874204270747140),
  (41, 426832466355, 2100091589075680), (38, 73199792046, 2608402180621620)]

/-- `vsop87d_dict.py` 15540-16137. -/
def marsR1 : List (ℕ × ℕ × ℕ) := List.flatten [
  marsR1_0, marsR1_1, marsR1_2, marsR1_3, marsR1_4, marsR1_5]

/-- `vsop87d_dict.py` 16139-16238. -/
def marsR2_0 : List (ℕ × ℕ × ℕ) := [
  (44242247, 47930603943, 334061242669980), (8138042, 86998398093, 668122485339960),
  (1274915, 122594050809, 1002183728009940), (187387, 157298991982, 1336244970679920),
  (40744, 197080175060, 334413554504880), (52396, 314159265359, 0),
  (26616, 191665615762, 1670306213349900), (17825, 443499505333, 228123049651060),
  (11713, 452510453730, 318519202726560), (10209, 539143469548, 105938193018920),
  (9950, 41870577185, 79629800681640), (9237, 453579272961, 214616541647520),
  (7299, 314218509183, 254431441988340), (7217, 229300859074, 668474797174860),
  (6808, 526702580055, 15542039943420), (6528, 230781369329, 373876143010800),
  (7785, 593369079547, 174801641306700), (5840, 105191350362, 134986740965880),
  (6749, 530194395749, 119444701022460), (4695, 76880586144, 309788382272579),
  (5391, 100223256041, 314916416058820), (4406, 245556303355, 95171840625060),
  (4286, 389643520638, 159259601363280), (3514, 185168391963, 39814900340820),
  (3699, 226043707772, 2004367456019880), (3377, 381683532672, 175153953141600),
  (4585, 80787441740, 413691043351620), (3201, 211657635165, 561472937620960),
  (3622, 132395191387, 333349887969900), (2916, 119337460559, 52969096509460),
  (2979, 286481008776, 615153388830500), (3057, 455276793064, 562895647021120),
  (2906, 120295377623, 389418182954220), (3850, 386055626689, 55356940284240),
  (2820, 248683324916, 199074501704100), (2657, 607411629964, 429233083295040),
  (2700, 292139773350, 349603282613400), (2395, 594175921617, 278704302385740),
  (2264, 256219866409, 19144826611160), (2167, 536812435483, 896245534991020),
  (2149, 274950075397, 24272860397400), (2217, 185265984462, 333708930835080),
  (1996, 576429928131, 334159274776800), (1999, 382349238481, 291401423582380),
  (1835, 568592723044, 158907289528380), (1812, 332042068028, 508862883976680),
  (2413, 468291336853, 469047983635860), (1970, 417480610904, 334059517304760),
  (1970, 620643855008, 334062968035200), (1627, 567733051452, 453505943692440),
  (2160, 107452599834, 238889402044920), (1964, 310805316088, 358334103067380),
  (1985, 575850351840, 439999435688900), (1507, 495936409838, 38289653222320),
  (1278, 482232889938, 295771589447660), (1475, 222707926559, 372350895892300),
  (1196, 326724458920, 949214631500480), (1349, 487573224485, 652580445396540),
  (1433, 269734916443, 707937385680780), (1224, 262012336714, 1002536039844840),
  (1404, 519056026479, 270071514038580), (1202, 93472783088, 281092146160520),
  (869, 581340811635, 1230306777661000), (867, 220046640409, 269973481931760),
  (830, 201484544773, 509215195811580), (855, 596220147975, 42659819087600),
  (848, 226407047301, 628307584999140), (917, 140295785881, 648977658728800),
  (833, 117384197174, 747752286021600), (1041, 627171470048, 334772597370060),
  (965, 339855816541, 562184292321040), (722, 426304776331, 493320844033260),
  (706, 234131594714, 711354700080), (768, 206208352904, 548677784317500),
  (953, 211123497948, 387030339179440), (844, 223931963240, 355391152213780),
  (646, 224669034469, 334054511639700), (653, 399043329363, 667770173505060),
  (714, 29739480601, 668124210705180), (828, 22863617670, 353206069281140),
  (612, 155388376751, 723479425624200), (714, 454969883976, 668120759974740),
  (586, 330118433303, 122184856632140), (646, 183853693231, 334067973700260),
  (560, 505848353328, 803109226305840), (651, 15897472160, 763294325965020),
  (488, 308086378649, 683664525283380), (534, 425727954634, 333963210563160),
  (504, 259990772815, 2338428698689860), (372, 627186983164, 248741604494780),
  (343, 471059403854, 63989728631400), (449, 134123846614, 64087760738220),
  (342, 596338023755, 492968532198360), (329, 265955258770, 962368827669120),
  (352, 609567212646, 774060678358880), (326, 605498346093, 211876386037840),
  (403, 496465831103, 896956889691100), (402, 284624835384, 533135744374080),
  (319, 144545457475, 572950644714900), (303, 1918776551, 612765545055720)]

/-- `vsop87d_dict.py` 16239-16338. -/
def marsR2_1 : List (ℕ × ℕ × ℕ) := [
  (297, 574070606294, 604132756708560), (297, 306763224975, 1041998628350760),
  (282, 604069352017, 787567186362420), (278, 511654962157, 1177337681151540),
  (259, 289786343627, 721091581849420), (273, 383181794308, 842924126646660),
  (256, 108862226474, 228834404351140), (288, 613572687680, 668220517446780),
  (302, 361490647715, 1283275874170460), (235, 221413387615, 668129216370240),
  (317, 360634897209, 230158581590939), (289, 508223311018, 227411694950980),
  (254, 36603904729, 376721061757580), (235, 262434481550, 668115754309680),
  (226, 345305949713, 692395345737360), (205, 388943452829, 1001831416175040),
  (206, 344453113177, 1017725767953360), (210, 57926734389, 1097355568635000),
  (194, 157870686859, 1081813528691580), (190, 242312911773, 895534180290940),
  (194, 245887376159, 706412138562280), (193, 58793888724, 582802847164760),
  (183, 168247271963, 21329909543800), (236, 198863774162, 1057540668294180),
  (245, 217761779228, 456246099302120), (177, 66379705293, 1002185453375160),
  (176, 491607557961, 1002182002644720), (217, 293968443649, 1336597282514820),
  (167, 474764434327, 391495722503460), (213, 15734917857, 294246342329160),
  (155, 178776991092, 983038901398780), (180, 521088564787, 986641688066520),
  (161, 517683861380, 629832832117640), (159, 268980684850, 689452394883760),
  (149, 626524493469, 103902661079040), (147, 36939961702, 668833840040040),
  (151, 122272892290, 57434479833480), (137, 209492296067, 106649547719000),
  (165, 615952050903, 1564368020330980), (163, 466507592292, 827382086703240),
  (124, 67855210339, 643849624942560), (128, 169206367749, 398149003408200),
  (116, 278191248964, 336096774609859), (128, 84461423001, 335586489788480),
  (124, 163253732557, 667411130639880), (120, 31762150109, 312731333126180),
  (129, 226678583645, 646792575796160), (104, 7355376701, 332535995551480),
  (130, 441777190830, 332025710730100), (95, 131957248342, 790307341972100),
  (114, 65681602343, 317814579056760), (92, 498392367746, 977910867612540),
  (101, 410670787374, 53680451209540), (106, 541622566807, 1511398923821520),
  (96, 352561014696, 347567750673520), (101, 291169549546, 69215760122680),
  (93, 321464368291, 867196987044060), (87, 524375873119, 1311972110282519),
  (106, 376804681559, 1351787010623340), (89, 573652101746, 1137170468975820),
  (104, 590078964406, 843276438481560), (99, 361425346453, 85319638175200),
  (78, 95802015551, 319104922956520), (89, 250872076312, 105226838318840),
  (78, 298115354616, 2672489941359840), (79, 591514993930, 604034724601740),
  (90, 300950470302, 1296430070339100), (75, 131512531841, 1792491069982040),
  (73, 501153593776, 190343681250120), (75, 257969241717, 1002190459040220),
  (73, 409954161905, 331983703120740), (70, 537678396256, 1231018132361080),
  (71, 98422998240, 1336246696045140), (68, 469140248943, 52257741809380),
  (68, 324217441291, 1670658525184800), (69, 253964193741, 588492684658320),
  (70, 238237948321, 1391601910964160), (66, 348443797546, 1376059871020740),
  (68, 527435069681, 398050971301380), (76, 12288413214, 1121628429032400),
  (73, 394785759909, 1617337116840440), (62, 15518975647, 1108121921028860),
  (74, 299926779692, 1002176996979660), (80, 618812323827, 938095967271720),
  (64, 399294283669, 1335892658845020), (61, 256817782412, 14956319713460),
  (59, 380850908229, 1026456588407340), (60, 479879360562, 143717561419860),
  (68, 207515658228, 159618644228460), (60, 226503107747, 2862833622609960),
  (58, 610782258899, 545937628707820), (63, 24407077742, 1898429263000960),
  (58, 522738430747, 1336243245314700), (56, 188708253797, 907011887384880),
  (55, 572587156499, 43371173787680), (56, 118238857561, 669647732458460),
  (62, 398214740104, 342792063123960), (56, 537129176649, 509926550511660),
  (57, 86204712032, 564219824260920), (55, 131787605222, 898281066930900)]

/-- `vsop87d_dict.py` 16339-16438. -/
def marsR2_2 : List (ℕ × ℕ × ℕ) := [
  (56, 549808236951, 2409327678917520), (54, 377562154746, 1021328554621100),
  (54, 236294643031, 3371696506586640), (63, 353402427573, 320554734666440),
  (66, 625810929981, 827029774868340), (67, 58592813080, 333508950239240),
  (55, 474995645767, 666086953400080), (53, 31930032532, 1272157209941700),
  (69, 242905593362, 615864743530580), (55, 503192783121, 725556965173440),
  (51, 545351947711, 1320702930736500), (50, 23368526162, 437963903749020),
  (53, 212826344020, 1317100144068760), (49, 235512151368, 403277002792660),
  (49, 281773050890, 980853818466140), (67, 226295786556, 276626762836500),
  (49, 72597680486, 1002895082710020), (50, 610119450350, 325330422216000),
  (59, 27861398526, 922553927328300), (53, 127330874549, 334449376205780),
  (49, 291499389416, 1040473381232260), (47, 48598973231, 1739521973472580),
  (49, 340240207389, 330458456002240), (60, 340554368741, 1055152824519400),
  (50, 183471955355, 3037635263916660), (46, 304980996832, 614442034130420),
  (49, 33200904496, 670200024889200), (53, 35820094732, 946826787725700),
  (50, 15378507249, 264845482547300), (44, 79762157297, 710782304427560),
  (50, 241332661328, 440710790388980), (54, 21682940856, 1002281760116760),
  (44, 578502737591, 336449086444760), (44, 75508636274, 1606218452611680),
  (43, 310581037685, 1023513637553740), (44, 521252098878, 737338245462640),
  (58, 451680312444, 666044945790720), (43, 15523355839, 150528780909299),
  (55, 593371026829, 843987793181640), (42, 540417232308, 334420285535160),
  (56, 387534582911, 681628993343500), (49, 557153056447, 1746885519794540),
  (46, 307783299049, 1272255242048520), (45, 149303542795, 624751311552280),
  (55, 626098836404, 336138782219220), (42, 474455545491, 336906161416760),
  (40, 158676666294, 281803500860600), (43, 497295184315, 333702199804800),
  (55, 380215638520, 337664029337720), (47, 197367775421, 158195934828300),
  (45, 203598705348, 524404923920100), (49, 443182954044, 959523908922340),
  (43, 38914582094, 666597238221460), (40, 106953099245, 2369512778576700),
  (38, 59996214864, 1071399488132620), (39, 379055778605, 3331881606245820),
  (41, 554542347834, 386318984479360), (37, 527208151144, 2075266436247540),
  (39, 315412760412, 1446958851248400), (41, 55705920174, 334613535100720),
  (48, 142210748234, 331673398895200), (49, 544942247991, 963894074787620),
  (38, 211846271943, 1566403552270859), (35, 530782933148, 667763442474780),
  (36, 268151450016, 858466166590080), (46, 309450395763, 670158017279840),
  (38, 181885395671, 1415874771361560), (37, 580483071722, 668481528205140),
  (47, 260317702777, 16246663613220), (38, 222559377525, 350307906283200),
  (35, 84358942718, 651875821726740), (33, 492302322062, 2314155838292460),
  (43, 95148893985, 3411511406927460), (46, 499457196207, 938193999378540),
  (43, 173832102244, 1232342309600880), (32, 292741580696, 949925986200560),
  (43, 150296327105, 2703574021246680), (33, 541731109688, 2059724396304120),
  (32, 413881058425, 3157079964939120), (40, 584463069180, 1646033352952499),
  (35, 550083743557, 842565083781480), (38, 591991985929, 333673109134180),
  (30, 509155042811, 508503841111500), (31, 427211180916, 3665942848915800),
  (30, 487389489592, 169216566950240), (30, 375494646937, 484590023579280),
  (34, 371030605417, 882739026987480), (30, 1599456850, 1124368584642080),
  (29, 266198696023, 1229595422960920), (28, 312114207206, 1192527409260060),
  (36, 116568750904, 1805292954315780), (32, 172704226918, 1256615169998280),
  (28, 280254457895, 360721946842160), (32, 404390839531, 668024453233140),
  (27, 253565904393, 1900464794940840), (36, 333518515689, 2997820363575840),
  (28, 58104982217, 2035451535906720), (29, 585207825749, 3117265064598300),
  (26, 222598820379, 352311834900), (33, 515903548241, 1059618207843420)]

/-- `vsop87d_dict.py` 16439-16451. -/
def marsR2_3 : List (ℕ × ℕ × ℕ) := [
  (28, 189792803028, 333356619000180), (27, 225129832716, 7626607127560),
  (26, 432703172263, 1708595866572220), (26, 512847780702, 1176626326451460),
  (28, 80926596905, 2073583216142559), (26, 506814803493, 1741205193577560),
  (24, 447399155600, 313442687826260), (24, 435557152695, 1458429827312060),
  (27, 498717355201, 387741693879520), (25, 563712701265, 1405460730802600),
  (24, 412573657295, 419380880845180), (25, 140880282063, 818651266249260),
  (24, 496463811748, 2608790314157420)]

/-- `vsop87d_dict.py` 16138-16452. -/
def marsR2 : List (ℕ × ℕ × ℕ) := List.flatten [
  marsR2_0, marsR2_1, marsR2_2, marsR2_3]

/-- `vsop87d_dict.py` 16454-16553. -/
def marsR3_0 : List (ℕ × ℕ × ℕ) := [
  (1113107, 514987350142, 334061242669980), (424446, 561343766478, 668122485339960),
  (100044, 599726827028, 1002183728009940), (19606, 7633062094, 1336244970679920),
  (3477, 42951907576, 1670306213349900), (4693, 314159265359, 0),
  (2869, 44711842697, 334413554504880), (2428, 302115527957, 318519202726560),
  (688, 80693359444, 668474797174860), (540, 386836515672, 105938193018920),
  (577, 77853275120, 2004367456019880), (468, 452450786544, 349603282613400),
  (487, 160862391345, 358334103067380), (362, 442397903418, 278704302385740),
  (397, 571967986581, 314916416058820), (299, 75640033535, 373876143010800),
  (350, 555691984889, 413691043351620), (314, 337632898783, 652580445396540),
  (233, 213965262306, 309788382272579), (212, 420487494011, 334159274776800),
  (214, 56779556947, 15542039943420), (201, 235284464564, 159259601363280),
  (204, 96723315302, 199074501704100), (230, 582959057146, 238889402044920),
  (160, 414974194757, 453505943692440), (156, 513345210285, 79629800681640),
  (146, 329541339704, 295771589447660), (156, 113805508457, 1002536039844840),
  (159, 376174286126, 119444701022460), (136, 558293924642, 389418182954220),
  (145, 302112488974, 333708930835080), (146, 425359617225, 439999435688900),
  (100, 426740096115, 158907289528380), (91, 612108227231, 648977658728800),
  (101, 117242141914, 707937385680780), (98, 112613498307, 2338428698689860),
  (75, 602182689533, 52969096509460), (78, 593418069229, 747752286021600),
  (68, 170775041911, 949214631500480), (70, 367253155189, 896245534991020),
  (62, 414954627063, 429233083295040), (67, 15092246550, 387030339179440),
  (66, 112578506413, 615153388830500), (62, 193984222091, 692395345737360),
  (60, 430641513096, 1230306777661000), (74, 472156358149, 334772597370060),
  (55, 275742802464, 493320844033260), (53, 477894621871, 612765545055720),
  (50, 257807944338, 334059517304760), (48, 372532068729, 986641688066520),
  (42, 615391373101, 723479425624200), (43, 343955584179, 548677784317500),
  (50, 460885064189, 334062968035200), (44, 447943289816, 42659819087600),
  (45, 624485207500, 227411694950980), (40, 73805316471, 711354700080),
  (38, 106497784748, 962368827669120), (41, 460954640493, 668220517446780),
  (38, 460963924082, 774060678358880), (36, 315129246169, 63989728631400),
  (37, 614629970622, 572950644714900), (40, 147395544850, 1336597282514820),
  (35, 260772245492, 469047983635860), (35, 245077931900, 228834404351140),
  (34, 450544497582, 787567186362420), (42, 211383330882, 1283275874170460),
  (33, 397655860802, 19144826611160), (32, 406047154083, 353206069281140),
  (34, 506671994554, 668124210705180), (42, 467024017441, 1564368020330980),
  (36, 29140871479, 372350895892300), (33, 452588149629, 492968532198360),
  (34, 274499072890, 667770173505060), (30, 157743012295, 1041998628350760),
  (40, 131713176335, 533135744374080), (34, 303490000148, 668120759974740),
  (31, 125306164576, 24272860397400), (29, 544118048011, 1002185453375160),
  (29, 341037097794, 1002182002644720), (28, 481855060968, 683664525283380),
  (28, 72745302325, 628307584999140), (30, 306267495632, 228123049651060),
  (27, 62535799761, 668129216370240), (30, 356389476096, 896956889691100),
  (32, 531078691958, 55356940284240), (33, 200753799963, 588492684658320),
  (27, 118001479303, 895534180290940), (25, 294122791628, 254431441988340),
  (25, 17808889827, 983038901398780), (31, 573384204593, 333963210563160),
  (28, 370436008855, 629832832117640), (24, 7739730466, 1081813528691580),
  (27, 103401737006, 668115754309680), (24, 9987383242, 38289653222320),
  (27, 60053652251, 355391152213780), (27, 497107900859, 376721061757580),
  (24, 336621347824, 803109226305840), (26, 480509833364, 763294325965020),
  (22, 143966107077, 2672489941359840), (20, 36901153144, 39814900340820)]

/-- `vsop87d_dict.py` 16554-16564. -/
def marsR3_1 : List (ℕ × ℕ × ℕ) := [
  (19, 100325306041, 706412138562280), (20, 19821371186, 667411130639880),
  (18, 107169297658, 721091581849420), (21, 269512140340, 1001831416175040),
  (23, 325670295081, 562184292321040), (18, 24542781929, 398149003408200),
  (18, 514428605713, 668833840040040), (20, 97539014916, 689452394883760),
  (24, 442156401638, 174801641306700), (16, 65389503440, 334054511639700),
  (16, 528427106012, 333349887969900)]

/-- `vsop87d_dict.py` 16453-16565. -/
def marsR3 : List (ℕ × ℕ × ℕ) := List.flatten [
  marsR3_0, marsR3_1]

/-- `vsop87d_dict.py` 16567-16594. -/
def marsR4_0 : List (ℕ × ℕ × ℕ) := [
  (19552, 358211650473, 334061242669980), (16323, 405116076923, 668122485339960),
  (5848, 446383962094, 1002183728009940), (1532, 484374321619, 1336244970679920),
  (375, 150962233608, 318519202726560), (339, 520684967613, 1670306213349900),
  (151, 516472931648, 334413554504880), (125, 219233532803, 349603282613400),
  (148, 0, 0), (87, 10275067375, 358334103067380),
  (70, 555303619365, 2004367456019880), (48, 291797786512, 278704302385740),
  (49, 557038514830, 668474797174860), (57, 186867280743, 652580445396540),
  (34, 363370917313, 309788382272579), (21, 230677637991, 105938193018920),
  (21, 403682122005, 413691043351620), (18, 417438755890, 314916416058820),
  (13, 197805475719, 15542039943420), (17, 594856414690, 1002536039844840),
  (12, 51097435253, 692395345737360), (12, 327945299261, 612765545055720),
  (13, 222938285522, 986641688066520), (16, 264206771227, 439999435688900),
  (13, 275813969974, 683664525283380), (13, 451988349676, 648977658728800),
  (14, 76591550754, 389418182954220), (11, 547381242145, 373876143010800)]

/-- `vsop87d_dict.py` 16566-16595. -/
def marsR4 : List (ℕ × ℕ × ℕ) := marsR4_0

/-- `vsop87d_dict.py` 16597-16605. -/
def marsR5_0 : List (ℕ × ℕ × ℕ) := [
  (476, 247617204701, 668122485339960), (268, 291510547706, 1002183728009940),
  (115, 176888962311, 334061242669980), (96, 331378377179, 1336244970679920),
  (48, 627457828287, 318519202726560), (27, 369380877066, 1670306213349900),
  (13, 372005807206, 349603282613400), (12, 488179002689, 358334103067380),
  (12, 314159265359, 0)]

/-- `vsop87d_dict.py` 16596-16606. -/
def marsR5 : List (ℕ × ℕ × ℕ) := marsR5_0

/-- `vsop87d_dict.py` 14419-16607 `_planets[("Mars", "R")]`. -/
def marsR : List (List (ℕ × ℕ × ℕ)) :=
  [marsR0, marsR1, marsR2, marsR3, marsR4, marsR5]

end Verif.Data

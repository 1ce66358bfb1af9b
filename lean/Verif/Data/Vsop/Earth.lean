import Mathlib.Data.Nat.Notation

/-! Generated by tools/gen_vsop.py from vsop87d_dict.py; do not edit.
Each row is amplitude, phase and frequency in units of 1e-11. -/

namespace Verif.Data

/-- `vsop87d_dict.py` 8620-8719. -/
def earthL0_0 : List (ℕ × ℕ × ℕ) := [
  (175347045673, 0, 0), (3341656456, 466925680417, 628307584999140),
  (34894275, 462610241759, 1256615169998280), (3417571, 282886579606, 352311834900),
  (3497056, 274411800971, 575338488489680), (3135896, 362767041758, 7771377146812050),
  (2676218, 441808351397, 786041939243920), (2342687, 613516237631, 393020969621960),
  (1273166, 203709655772, 52969096509460), (1324292, 74246356352, 1150676976979360),
  (901855, 204505443513, 2629831979980), (1199167, 110962944315, 157734354244780),
  (857223, 350849156957, 39814900340820), (779786, 117882652114, 522369391980220),
  (990250, 523268129594, 588492684658320), (753141, 253339053818, 550755323866740),
  (505264, 458292563052, 1884922754997420), (492379, 420506639861, 77552261132400),
  (356655, 291954116867, 6731030280), (284125, 189869034186, 79629800681640),
  (242810, 34481140906, 548677784317500), (317087, 584901952218, 1179062908865880),
  (271039, 31488607649, 1097707880469900), (206160, 480646606059, 254431441988340),
  (205385, 186947813692, 557314280143310), (202261, 245767795458, 606977675455340),
  (126184, 108302630210, 2077539549240), (155516, 83306073807, 21329909543800),
  (115132, 64544911683, 98032106820), (102851, 63599846727, 469400295470760),
  (101724, 426679821365, 711354700080), (99206, 620992940258, 214616541647520),
  (132212, 341118275555, 294246342329160), (97607, 68101272270, 15542039943420),
  (85128, 129870743025, 627596230299060), (74651, 175508916159, 508862883976680),
  (101895, 97569221824, 1572083878487840), (84711, 367080093025, 7143069561812909),
  (73547, 467926565481, 80182093112380), (73874, 350319443167, 315468708489560),
  (78756, 303698313141, 1203646073488820), (79637, 180791330700, 1726015465469040),
  (85803, 598322631256, 16100068573767410), (56963, 278430398043, 628659896834040),
  (61148, 181839811024, 708489678111520), (69627, 83297596966, 943776293488700),
  (56116, 438694880779, 1414349524243060), (62449, 397763880587, 882739026987480),
  (51145, 28306864501, 585647765911540), (55577, 347006009062, 627955273164240),
  (41036, 536817351402, 842924126646660), (51605, 133282746983, 174801641306700),
  (51992, 18914945834, 1213955350910680), (49000, 48735065033, 119444701022460),
  (39200, 616832995016, 1044738783960440), (35566, 177597314691, 681276681508600),
  (36770, 604133859347, 1021328554621100), (36596, 256955238628, 105938193018920),
  (33291, 59309499459, 1778984561978500), (35954, 170876111898, 235286615377180),
  (40938, 239850881707, 1965104848109800), (30047, 273975123935, 134986740965880),
  (30412, 44294464135, 8399684731811189), (23663, 48473567763, 803109226305840),
  (23574, 206527720049, 334061242669980), (21089, 414825464101, 95171840625060),
  (24738, 21484762138, 359042865180), (25352, 316470953405, 469047983635860),
  (22820, 522197888032, 470573230754360), (21419, 142563735525, 1673046368959580),
  (21891, 555594302562, 55356940284240), (17481, 456052900359, 13506508003540),
  (19925, 522208471269, 1216800269657460), (19860, 577470167653, 630937416979120),
  (20300, 37133792946, 28385931886520), (14421, 419315332546, 24272860397400),
  (16225, 598837722564, 1176985369316640), (15077, 419567181073, 625677753019160),
  (19124, 382219996949, 2358125817731760), (18888, 538626880969, 14985440013480789),
  (14346, 372355084422, 3802767263580), (17898, 221490735647, 1336797263110660),
  (12054, 262229588349, 95559974160860), (11287, 17739328092, 416431198961300),
  (13971, 440138139996, 668122485339960), (13621, 188934471407, 763294325965020),
  (12503, 113052412208, 552292430740), (10498, 535909518669, 159259601363280),
  (9803, 99947478995, 1137170468975820), (9220, 457138609781, 429233083295040),
  (10327, 619982566125, 643849624942560), (12003, 100351456700, 63278373931320),
  (10827, 32734520222, 10309277421860), (8356, 453902685948, 2513230339996560),
  (10005, 602914963280, 574627133789600), (8409, 329946744189, 723479425624200),
  (8006, 582145271907, 2844918746780), (10523, 93871805506, 1192625441366880),
  (7686, 312142363172, 723867559160000), (9378, 262414241032, 576049843189760)]

/-- `vsop87d_dict.py` 8720-8819. -/
def earthL0_1 : List (ℕ × ℕ × ℕ) := [
  (8127, 611228001785, 473203062734340), (9232, 48343968736, 52257741809380),
  (9802, 524413991147, 2751146787353720), (7871, 99590177926, 564317856367740),
  (8123, 627053013650, 42659819087600), (9048, 533686335897, 638616862421000),
  (8620, 416538210888, 705859846131540), (6297, 471724819317, 683664525283380),
  (7575, 397382858911, 1149965622279280), (7756, 295729056763, 2301353953958720),
  (7314, 60652505806, 1151388331679440), (5955, 287641047971, 628314316029419),
  (6534, 579072926033, 1807370493865020), (7188, 399831508699, 7478159856730),
  (7346, 438582365437, 31639186965660), (5413, 539199024641, 41948464387520),
  (5127, 236062848786, 1097355568635000), (7056, 32258441903, 26308392337280),
  (6625, 366475158672, 1729818232732620), (6762, 591132535899, 9095555169449610),
  (4938, 573672165674, 991769687450980), (5547, 245152597661, 1235285260454480),
  (5958, 332051344676, 628300853968860), (4471, 206385999536, 707937385680780),
  (6153, 145823331144, 23314131440436149), (4348, 442342175480, 521658037280140),
  (6123, 107494905258, 1980482729158280), (4488, 365285037150, 20618554843720),
  (4020, 83995823171, 2035531939880), (5188, 406503864016, 620829425142410),
  (5307, 38217636096, 3144167756975680), (3785, 234369213733, 388133535800),
  (4497, 327230796845, 1101510647733480), (4132, 92128915753, 373876143010800),
  (3521, 597844807108, 389418182954220), (4215, 190601120623, 24583164622940),
  (3701, 503069397926, 53680451209540), (3865, 182634360607, 1185621865142450),
  (3652, 101838584934, 1620077272450120), (3390, 97785123922, 863594200376320),
  (3737, 295380107829, 312838876509580), (3507, 371291946325, 629018939699220),
  (3086, 364646921512, 1063666534980), (3397, 110590684017, 1471231711645800),
  (3334, 83684924911, 649637494542940), (2805, 258504514144, 1431416811304980),
  (3650, 108344142571, 8886005707098669), (3388, 320185096055, 512060114558360),
  (3252, 347859752062, 613351265285680), (2553, 394869034189, 199074501704100),
  (3520, 205559692878, 24428760000722769), (2565, 156071784900, 2354323050468179),
  (2621, 385639359951, 26660704172180), (2955, 339692949667, 922553927328300),
  (2876, 602635617464, 15471760988768269), (2395, 116131956403, 1098419235169980),
  (3161, 132798718453, 1087398603048040), (3163, 508946464629, 2122839202354580),
  (2361, 427212906992, 604034724601740), (3030, 180209931347, 3537188726597640),
  (2343, 357689860500, 1096996525769820), (2618, 257870156528, 2248384857449259),
  (2113, 371393780256, 6514761976813770), (2019, 81393923319, 17067287061920),
  (2003, 38091017375, 617286952877200), (2506, 374379142438, 1057540668294180),
  (2381, 10581361289, 704623669800), (1949, 486892513469, 3602786667740),
  (2074, 422794774570, 565029211067820), (1924, 559460549860, 628209552892320),
  (1949, 107002512703, 523080746680300), (1988, 519736046771, 626230045449900),
  (1887, 374365662683, 2387843774780), (1787, 125929682929, 1255903815298200),
  (1883, 190364058477, 1525247118500), (1816, 368083868442, 1511046611986620),
  (1701, 441105895380, 11020632121940), (1990, 393295788548, 620680977871580),
  (2103, 75354917468, 1352175144159140), (1774, 48747535361, 155104522264800),
  (1882, 86684493432, 2200391463486980), (1924, 122898324132, 70993304855830),
  (2009, 462850921980, 603724420376200), (1924, 60231842508, 628405617105960),
  (1596, 398332956992, 1391601910964160), (1664, 441939715469, 866224032356300),
  (1971, 104560500503, 1820933026366019), (1942, 431335979989, 624494281435360),
  (1476, 93271367331, 237916447357160), (1810, 49112137707, 148447270830),
  (1346, 151574702235, 413691043351620), (1528, 561835711404, 612765545055720),
  (1791, 322187270126, 3930209696219600), (1747, 305638656738, 1831953658487960),
  (1431, 451153808594, 2042657109242200), (1695, 22047718414, 2515860171976540),
  (1242, 446665769933, 1725663153634140), (1463, 469242679213, 1494531617355440),
  (1205, 186912144659, 459091018048900), (1192, 274227166898, 1256967481833180)]

/-- `vsop87d_dict.py` 8820-8919. -/
def earthL0_2 : List (ℕ × ℕ × ℕ) := [
  (1222, 518120087482, 533390024102160), (1390, 542894648983, 14357132428481648),
  (1473, 170479245805, 1171295531823080), (1362, 261069503292, 606266320755260),
  (1148, 603001800540, 363462102451840), (1198, 515294130422, 1017725767953360),
  (1266, 11421493643, 1842262935909819), (1411, 109908857534, 349603282613400),
  (1349, 299805109633, 1765478053974960), (1253, 279850152848, 16728376158766549),
  (1311, 160942984879, 548125491886760), (1079, 620304501787, 328635741780),
  (1181, 120653776978, 13154196168640), (1254, 545103277798, 607689030155420),
  (1035, 232142722747, 734245778018060), (1117, 38838354256, 94917560896980),
  (966, 318341890851, 1108728512591840), (1171, 339635049962, 1256262858163380),
  (1121, 72627490378, 22041264243880), (1024, 219378315386, 1140367699557500),
  (888, 391173199285, 468688940770680), (910, 198802695087, 73587651353180),
  (830, 48984915507, 2407292146977640), (1096, 617377835617, 543699301524020),
  (908, 44959639433, 747752286021600), (974, 152996238356, 962368827669120),
  (840, 179543266333, 542987946823940), (778, 617699177946, 3813303563780),
  (776, 409855402433, 1422709400160), (1068, 464200173735, 4323230665841560),
  (954, 149988435748, 116247470440780), (907, 86986870809, 1034429506538580),
  (931, 406044689031, 2876692442448400), (739, 504368197372, 63989728631400),
  (937, 346884698960, 158907289528380), (763, 586304932998, 1685848253293320),
  (953, 420801492835, 1119037790013700), (708, 172899988940, 1309584266507740),
  (969, 164439522215, 2908881141598500), (717, 16688678895, 1172935283600),
  (962, 353092337542, 1241658850284820), (747, 577866940346, 1259245001978260),
  (672, 191095796194, 393215326310), (671, 546240843677, 1805292954315780),
  (675, 628311558823, 453505943692440), (684, 39975012080, 584936411211460),
  (799, 29851185294, 1213243996210600), (758, 96370823331, 105226838318840),
  (782, 533878339919, 1351787010623340), (730, 170106160291, 1726726820169119),
  (749, 259599901875, 1160986254401220), (734, 278417782952, 64087760738220),
  (688, 515048287468, 1649636139620240), (770, 162469589333, 470111650170840),
  (633, 220587893893, 2593412433108940), (760, 421317219403, 37737360791580),
  (584, 213420121623, 1055759416082380), (574, 24250054587, 977910867612540),
  (573, 316435264609, 53321408344360), (685, 319344289472, 1214666705610760),
  (675, 96179233959, 1045450138660520), (648, 146327342555, 626884875598980),
  (589, 250543543638, 309788382272579), (551, 528099026956, 938800590941520),
  (696, 365342150016, 480420927592700), (669, 251030077026, 238889402044920),
  (550, 6883864342, 2019909495963300), (629, 413350995675, 4589273043315699),
  (678, 609190163533, 13562532501000), (593, 150136257618, 22685823855437008),
  (542, 358573645173, 614801076995600), (682, 502203067788, 1725304110768959),
  (565, 429309238610, 1193336796066960), (486, 77746204893, 2740155609680),
  (503, 58963565969, 1567108175940660), (616, 406539884128, 22747613278900),
  (583, 612695541996, 1887552586977400), (537, 215056440980, 2195415760939799),
  (669, 606986269566, 4716251635463520), (475, 40343842110, 691585958930460),
  (540, 283444222174, 532678669402080), (530, 526359885263, 1098880815753500),
  (582, 324533095664, 15377881048480), (641, 324711791371, 210703450754240),
  (621, 309698523779, 3301902111220460), (466, 314982372198, 1044027429260360),
  (466, 90708835657, 596668398033480), (528, 81926454470, 81355028395980),
  (603, 381378921927, 31642822867391503), (559, 181894804124, 1799603116822220),
  (437, 228625594435, 630385124548380), (518, 486069178322, 2059724396304120),
  (424, 623520018693, 648926139842860), (518, 617617826756, 24381748350),
  (404, 572804304258, 564219824260920), (458, 134117773915, 628700800325450),
  (548, 568454458320, 15542754293624099), (547, 103391472061, 364635037735440),
  (428, 469800981138, 84608283475120), (413, 602520699406, 627948542133960)]

/-- `vsop87d_dict.py` 8920-9019. -/
def earthL0_3 : List (ℕ × ℕ × ℕ) := [
  (534, 303030638223, 6656748586525429), (383, 149056949125, 1980094595622480),
  (410, 528319622279, 1845107854656599), (352, 468891600359, 490730205014560),
  (480, 536572651091, 34892442044800), (344, 589157452896, 654615977336420),
  (340, 37557426440, 1311972110282519), (434, 498417785901, 670256049386660),
  (332, 268902519126, 2929661538957860), (448, 216478480251, 590570224207560),
  (344, 206546633735, 4975702547180), (315, 124023811803, 406121921539440),
  (324, 230897526929, 501750837136500), (413, 17171692962, 628666627864320),
  (431, 386601101393, 1248988562870720), (349, 455372342974, 493320844033260),
  (323, 41971136084, 1077089325626180), (341, 268612860807, 1104570026390),
  (316, 352936906658, 1778273207278420), (315, 563357264999, 56882187402740),
  (340, 383571212349, 1066068693504240), (297, 62691416712, 2099539296644940),
  (405, 100085779471, 1646033352952499), (414, 121998752076, 5109272605085480),
  (336, 471465945226, 617998307577280), (361, 371227508354, 2823723345938940),
  (385, 621925225757, 2435678078864160), (327, 105606504715, 1191914086666800),
  (327, 614222420989, 625462666252360), (268, 247224339737, 66475604513000),
  (269, 186207884109, 2314155838292460), (345, 93461290184, 605873105428950),
  (296, 451687557180, 641814093002680), (353, 450033653082, 3694923080842420),
  (260, 404963546305, 652580445396540), (298, 220046722622, 15613747598479928),
  (253, 349900838384, 2986433402730900), (254, 244901693835, 533135744374080),
  (296, 84347588787, 572950644714900), (298, 129194706125, 2280573556599360),
  (241, 200721280805, 1673757723659660), (311, 123668016334, 628159137728310),
  (240, 251650377121, 624504817735560), (332, 355576945724, 766863742494250),
  (264, 444052061202, 1296430070339100), (257, 179654471948, 1108017157891760),
  (260, 333077598420, 588844996493220), (285, 30886361430, 1182316163945020),
  (290, 570141882483, 7767377042800), (255, 400939664440, 588140372823420),
  (253, 473318493678, 1672335014259500), (228, 95333661324, 554008578945880),
  (319, 138633229189, 16309618036118349), (224, 165156322696, 1002790319572920),
  (226, 34106460604, 1779695916678580), (236, 419817431922, 1966976089979),
  (280, 414080268970, 1253985338018300), (275, 550306930248, 3253255079140),
  (223, 523334210294, 5689837493560), (217, 608587881787, 680565326808520),
  (280, 452472044653, 601646880826960), (227, 506509843737, 627755292568400),
  (226, 517755154305, 1172006886523160), (245, 396486270306, 2277520145080),
  (220, 472078081970, 662855890001), (207, 571701403951, 4155079098480),
  (204, 391227411250, 269973481931760), (209, 86881969011, 632110352262720),
  (200, 211984445273, 427451831083240), (200, 539839888163, 601999192661860),
  (209, 567606291663, 1129347067435560), (252, 164965729351, 938095967271720),
  (275, 504826903506, 7329712585900), (208, 188207277133, 1130058422135640),
  (272, 74640926842, 197549254585600), (199, 330836672397, 2274340937951640),
  (269, 448560812155, 6447199124174489), (192, 217464236325, 586359120611620),
  (228, 585373115869, 12801884333740), (261, 264321183295, 5502293574707440),
  (220, 575012110079, 2942950853600), (187, 403230554718, 46796499035440),
  (200, 560556112058, 106649547719000), (231, 109802712785, 1234180690428090),
  (199, 29500625200, 14956319713460), (249, 510473210814, 787567186362420),
  (208, 93013835019, 1491901785375460), (179, 87104393079, 1272157209941700),
  (203, 156920753653, 2828699048486120), (179, 247036386443, 1606218452611680),
  (198, 354061588502, 3091412563500), (171, 345356518113, 532747610838280),
  (183, 72325421604, 627203014972750), (216, 297174580686, 1940279695281660),
  (168, 251550550242, 2393785638974100), (195, 9045393425, 15640072050240),
  (179, 449471798090, 3141537924995700), (216, 42177594328, 2353970738633280),
  (189, 37542530191, 981460410029120), (218, 236835880025, 1662737091537720)]

/-- `vsop87d_dict.py` 9020-9119. -/
def earthL0_4 : List (ℕ × ℕ × ℕ) := [
  (166, 423182968446, 1684067001081519), (200, 202153258098, 1609767995028260),
  (169, 91318727000, 9597922721780), (211, 573370637657, 15189728108520),
  (204, 42643085174, 51546387109300), (212, 300233538977, 1204357428188900),
  (192, 546153589821, 637905507720920), (165, 138698167064, 417142553661380),
  (160, 623798383332, 20225339517410), (215, 20889073407, 562184292321040),
  (181, 412439203622, 1334167431130680), (153, 124460848836, 2982630635467320),
  (150, 312999753018, 79982112516540), (175, 455671604437, 23942439025435288),
  (192, 133928820063, 39462588505920), (149, 265697593276, 2133564046700),
  (146, 558021191726, 41237109687440), (156, 375650175503, 1232342309600880),
  (143, 375708566606, 5886454391814630), (143, 328248547724, 2982143814880),
  (144, 107862546598, 126556747862640), (148, 23389236655, 1002183728009940),
  (193, 592751083086, 4087944050464380), (140, 497612440269, 15894351778320),
  (148, 261640453469, 1715706188047180), (141, 366871308723, 2608402180621620),
  (147, 509968173403, 66123292678100), (146, 496885605695, 5737580190084620),
  (142, 78678347839, 1277945079542080), (134, 479432636012, 11118664228760),
  (140, 127748013377, 10766352393860), (169, 274893543762, 2673594526221320),
  (165, 395288000638, 635785744855870), (183, 543418358741, 36969981594040),
  (134, 309132862833, 1781252211800), (132, 305633896779, 2249096212149340),
  (134, 409472795832, 659946771964800), (181, 422950689891, 96697087743560),
  (152, 528885894415, 1266924447420140), (150, 586819430908, 9723862754448749),
  (142, 587266532526, 2247673502749179), (145, 507330784304, 8730820453981),
  (133, 565471067133, 3197230581680), (124, 283326217072, 1256621901028560),
  (135, 312861731644, 3221720018108080), (137, 86487461904, 992481042151060),
  (172, 198369595114, 17424246596404970), (170, 441115280254, 32757451427678125),
  (151, 46542099527, 3960965458316560), (148, 213439571118, 49166329245880),
  (153, 378801830344, 1736324742890899), (165, 531654110459, 1694376278503380),
  (165, 406747587817, 5895314544329400), (118, 63846333239, 606591562980),
  (159, 86086959274, 22199502880149524), (119, 596432932413, 138589527633620),
  (114, 516516114595, 2568587280280800), (112, 339403722178, 2139354196985760),
  (112, 492889233335, 5680326216980), (119, 240637635942, 1863592845453620),
  (115, 23374479051, 41892439890060), (122, 93575234049, 2449240611365159),
  (115, 458880032176, 2670964694241340), (130, 485539251000, 2234526037610820),
  (140, 109413073202, 4480965020086340), (112, 605401806281, 43371173787680),
  (104, 154931540602, 12795153303460), (105, 482620858888, 3379454372352860),
  (102, 412448497391, 1566403552270859), (107, 467919356465, 7769075950573849),
  (118, 452320170120, 1900464794940840), (107, 571774478555, 7773678343050249),
  (143, 181201813018, 421406901508480), (125, 114419195615, 62567019231240),
  (124, 327736514057, 1256608438968000), (110, 108682570828, 278704302385740),
  (105, 178318141871, 1813929450141590), (102, 475119578149, 1224264628332540),
  (137, 143510636754, 8646461331683119), (101, 491289409429, 40167212175720),
  (129, 123567904485, 1202934718788740), (138, 245654707999, 757656007357400),
  (103, 40004073416, 9027992316810328), (108, 98989774940, 563606501667660),
  (117, 517362872063, 3452030930938080), (100, 395534628189, 554719933645960),
  (98, 128118280598, 2154896236929180), (97, 334717130592, 1631097904572060),
  (98, 437041908717, 3451326307268280), (125, 272164432960, 2406580792277559),
  (102, 66938025772, 1023958386601080), (119, 121689479331, 147886657406440),
  (94, 199595224256, 1336244970679920), (94, 430965982872, 2688031981303260),
  (95, 289807657534, 3491141207609100), (106, 100156653590, 1652265971600220),
  (97, 89642320201, 7198063357473118), (116, 419967201116, 20670073729660),
  (99, 137437847718, 103902661079040), (126, 321642544972, 30528194307104882)]

/-- `vsop87d_dict.py` 9120-9178. -/
def earthL0_5 : List (ℕ × ℕ × ℕ) := [
  (94, 68997876060, 783412107263940), (94, 558132218606, 310493005942380),
  (95, 303823741110, 898281066930900), (108, 52696637156, 27674577186440),
  (124, 343899862683, 17214697134054029), (102, 104031728553, 9514313292097810),
  (104, 339218586218, 29097286586600), (110, 368205877433, 2238075580027400),
  (117, 78475956902, 8328691426955358), (83, 18241793425, 1514139079431200),
  (89, 445371820659, 79277488846740), (82, 480703651241, 681988036208680),
  (87, 343122851097, 2770754249429480), (101, 532081603011, 230158581590939),
  (82, 87060089842, 1024120229116720), (86, 461919461931, 3614740987730040),
  (95, 287032884659, 2302065308658799), (88, 321133165690, 3332657873317420),
  (80, 184900424847, 2142446664430340), (101, 418796434479, 3066615495843280),
  (107, 577864921649, 3411511406927460), (104, 108739495962, 628859877429880),
  (110, 332898859416, 7214062866668739), (87, 440657711727, 14217862703620),
  (109, 194546030825, 2427910701821359), (87, 432472045435, 74299006053260),
  (107, 491580912547, 27703499374140), (88, 210180220766, 2648217080962440),
  (86, 401887374432, 1249137010141550), (106, 549092372854, 6288335513951360),
  (80, 619781316983, 670967404086740), (88, 209872810657, 23800452415723629),
  (83, 490662164029, 5128033786241), (95, 413387406591, 1821644381066100),
  (78, 606949391680, 14843453403769129), (79, 303048221644, 83896928775040),
  (74, 549813051211, 2902648522950779), (73, 305008665738, 56771863773040),
  (84, 46604373274, 4514121963660), (93, 252267536308, 4873985989708300),
  (76, 176418124905, 4165496311596780), (67, 577851227793, 631152503745920),
  (62, 332967880172, 1550861512327440), (79, 559773841328, 7196038658322369),
  (57, 390629505268, 599921653112620), (61, 5695043232, 785689627409019),
  (61, 563297958433, 786394251078820), (65, 372178394016, 1257326524698360),
  (57, 418217219541, 2608790314157420), (66, 392262333487, 6985335207568129),
  (53, 551119362045, 7771024834977149), (53, 488573986961, 7771729458646949),
  (62, 288876342225, 941146461508720), (51, 112657183874, 8257698122099529),
  (45, 295671076719, 2460261243487099), (40, 555145719241, 1256517137891460),
  (39, 120838190039, 1884211400297339), (45, 318590558749, 4558517281218740),
  (49, 244790934886, 1361380427733600)]

/-- `vsop87d_dict.py` 8619-9179. -/
def earthL0 : List (ℕ × ℕ × ℕ) := List.flatten [
  earthL0_0, earthL0_1, earthL0_2, earthL0_3, earthL0_4, earthL0_5]

/-- `vsop87d_dict.py` 9181-9280. -/
def earthL1_0 : List (ℕ × ℕ × ℕ) := [
  (628331966747491, 0, 0), (206058863, 267823455584, 628307584999140),
  (4303430, 263512650414, 1256615169998280), (425264, 159046980729, 352311834900),
  (108977, 296618001993, 157734354244780), (93478, 259212835365, 1884922754997420),
  (119261, 579557487799, 2629831979980), (72122, 113846158196, 52969096509460),
  (67768, 187472304791, 39814900340820), (67327, 440918235168, 550755323866740),
  (59027, 288797038460, 522369391980220), (55976, 217471680261, 15542039943420),
  (45407, 39803079805, 79629800681640), (36369, 46624739835, 77552261132400),
  (28958, 264707383882, 711354700080), (19097, 184628332577, 548677784317500),
  (20844, 534138275149, 98032106820), (18508, 496855124577, 21329909543800),
  (16233, 3216483047, 254431441988340), (17293, 299116864949, 627596230299060),
  (15832, 143049285325, 214616541647520), (14615, 120532366323, 1097707880469900),
  (11877, 325804815607, 508862883976680), (11514, 207502418155, 469400295470760),
  (9721, 423925472239, 134986740965880), (9969, 130262991097, 628659896834040),
  (9452, 269957062864, 24272860397400), (12461, 283432285512, 174801641306700),
  (11808, 527379790480, 119444701022460), (8577, 564475868067, 95171840625060),
  (10641, 76614199202, 55356940284240), (7576, 530062664886, 235286615377180),
  (5834, 176649917904, 105938193018920), (6385, 265033984967, 943776293488700),
  (5223, 566135767624, 7143069561812909), (5305, 90857521574, 315468708489560),
  (6101, 466632584188, 469047983635860), (4330, 24102555403, 681276681508600),
  (5041, 142490103709, 643849624942560), (4259, 77355900599, 1044738783960440),
  (5198, 185353197345, 80182093112380), (3744, 200119516488, 803109226305840),
  (3558, 242901552681, 1414349524243060), (3372, 386210700128, 159259601363280),
  (3374, 88776219727, 1203646073488820), (3175, 318785710594, 470573230754360),
  (3221, 61599835472, 842924126646660), (4132, 523992859705, 708489678111520),
  (2970, 607026318493, 429233083295040), (2900, 232464208411, 2035531939880),
  (3504, 479975694359, 627955273164240), (2950, 143108874817, 574627133789600),
  (2697, 480368225199, 723479425624200), (2531, 622290682655, 683664525283380),
  (2745, 93466065396, 576049843189760), (3250, 339954640038, 763294325965020),
  (2277, 500277837672, 1778984561978500), (2075, 395534978634, 1021328554621100),
  (2061, 222411683077, 585647765911540), (2252, 567166499885, 1149965622279280),
  (2148, 520184578235, 1151388331679440), (1886, 53198320577, 334061242669980),
  (1875, 473511970207, 8399684731811189), (2060, 254987293999, 2513230339996560),
  (1794, 147435409831, 416431198961300), (1778, 302473091781, 552292430740),
  (2029, 90960209983, 625677753019160), (2075, 226767270157, 52257741809380),
  (1772, 302622802353, 575338488489680), (1569, 612410242782, 521658037280140),
  (1590, 463713748247, 328635741780), (1542, 420004448567, 1336797263110660),
  (1427, 119088061711, 389418182954220), (1375, 309301252193, 13506508003540),
  (1359, 424532506641, 42659819087600), (1340, 576511818622, 604034724601740),
  (1284, 308524663344, 564317856367740), (1250, 307748157144, 1192625441366880),
  (1551, 307665451458, 668122485339960), (1268, 209196018331, 629018939699220),
  (1144, 324444699514, 1216800269657460), (1248, 344504937285, 53680451209540),
  (1118, 231829670425, 1673046368959580), (1105, 531966001019, 2387843774780),
  (1051, 375015946014, 786041939243920), (1025, 244688534235, 199074501704100),
  (962, 81771017882, 388133535800), (910, 41727865299, 707937385680780),
  (883, 516833917651, 1179062908865880), (957, 407673573735, 612765545055720),
  (1110, 390096793825, 1150676976979360), (802, 388778875582, 1097355568635000),
  (780, 239934293755, 158907289528380), (758, 130034364248, 10309277421860),
  (749, 496275803300, 649637494542940), (765, 336312388424, 3602786667740),
  (915, 541543742089, 20618554843720), (776, 257589093871, 1137170468975820),
  (772, 398369209464, 95559974160860), (749, 517890001805, 1096996525769820)]

/-- `vsop87d_dict.py` 9281-9380. -/
def earthL1_1 : List (ℕ × ℕ × ℕ) := [
  (806, 34218864254, 991769687450980), (728, 520962563787, 3802767263580),
  (685, 277592961854, 2077539549240), (636, 428242193632, 2844918746780),
  (608, 563278508906, 1098419235169980), (704, 560738823665, 373876143010800),
  (685, 38876148682, 1525247118500), (601, 73489602442, 41948464387520),
  (716, 265279791438, 630937416979120), (584, 554502568227, 1729818232732620),
  (650, 113379656406, 705859846131540), (688, 259683891779, 349603282613400),
  (485, 44467180946, 1235285260454480), (528, 274936967681, 393020969621960),
  (597, 527668281777, 1057540668294180), (583, 318929067810, 473203062734340),
  (526, 501697321546, 588492684658320), (540, 129175137075, 64087760738220),
  (473, 549953306970, 523080746680300), (406, 521248452189, 22041264243880),
  (395, 187474483222, 1620077272450120), (370, 384921354713, 1807370493865020),
  (367, 88533542778, 628314316029419), (379, 37983009325, 1017725767953360),
  (356, 384145204913, 1171295531823080), (374, 501577520608, 704623669800),
  (381, 430250406634, 606266320755260), (471, 86381834647, 606977675455340),
  (367, 132943839763, 628300853968860), (460, 519667219575, 628405617105960),
  (333, 554256205741, 468688940770680), (341, 436522989934, 723867559160000),
  (336, 400205876835, 309788382272579), (359, 622679790284, 24583164622940),
  (307, 235299010924, 17067287061920), (343, 377164927143, 607689030155420),
  (296, 544152227481, 1726015465469040), (328, 13837875384, 1101510647733480),
  (268, 113904550630, 1256967481833180), (263, 538633678, 413691043351620),
  (282, 504399837480, 747752286021600), (288, 313401177517, 1255903815298200),
  (259, 93882269387, 564219824260920), (292, 198420020514, 1213243996210600),
  (247, 384244798532, 542987946823940), (245, 570467521726, 6514761976813770),
  (241, 99480969552, 363462102451840), (246, 306168069935, 11020632121940),
  (239, 611855909114, 1185621865142450), (263, 66348415419, 2122839202354580),
  (262, 151070507866, 1214666705610760), (230, 175927314884, 977910867612540),
  (223, 200967043606, 617286952877200), (246, 110411690865, 628209552892320),
  (221, 303945240854, 863594200376320), (214, 403840869663, 1431416811304980),
  (236, 546915070580, 1391601910964160), (224, 468408089456, 2407292146977640),
  (212, 213695625494, 584936411211460), (207, 307724246401, 1172935283600),
  (207, 610306282747, 2354323050468179), (266, 100709566823, 238889402044920),
  (217, 627837036335, 1726726820169119), (204, 234615348695, 26660704172180),
  (195, 555015549753, 613351265285680), (188, 252667166175, 652580445396540),
  (185, 90960768344, 1831953658487960), (177, 173429218289, 15471760988768269),
  (187, 476483647432, 453505943692440), (186, 463080493407, 1044027429260360),
  (215, 281255454560, 734245778018060), (172, 145551888559, 922553927328300),
  (162, 330661909388, 63989728631400), (168, 217671416605, 2740155609680),
  (160, 168164180475, 1511046611986620), (158, 13519771874, 1309584266507740),
  (183, 56281322071, 1351787010623340), (179, 358450811616, 8730820453981),
  (152, 284070476818, 565029211067820), (182, 44065530624, 1725304110768959),
  (160, 595767264171, 470111650170840), (142, 146290137520, 1108728512591840),
  (142, 204464036087, 2042657109242200), (131, 540912137746, 269973481931760),
  (144, 207312090485, 2515860171976540), (147, 615106982168, 962368827669120),
  (141, 555739979498, 1045450138660520), (135, 6098110407, 1672335014259500),
  (124, 581218025669, 1725663153634140), (124, 236293551623, 493320844033260),
  (126, 347435905118, 2248384857449259), (159, 563954754618, 572950644714900),
  (123, 392815963256, 1799603116822220), (148, 302509280598, 155104522264800),
  (120, 591904349732, 620680977871580), (134, 311122937825, 2195415760939799),
  (119, 552141123450, 70993304855830), (122, 300813429479, 1980094595622480),
  (127, 137618620001, 1494531617355440), (141, 256889468729, 105226838318840)]

/-- `vsop87d_dict.py` 9381-9480. -/
def earthL1_2 : List (ℕ × ℕ × ℕ) := [
  (123, 283671175442, 1191914086666800), (118, 81934438215, 533135744374080),
  (151, 268731829165, 1176985369316640), (119, 508835797638, 548125491886760),
  (153, 246021790779, 1193336796066960), (108, 104936452145, 1140367699557500),
  (128, 99794735107, 882739026987480), (144, 254869747042, 22747613278900),
  (150, 450631437136, 237916447357160), (107, 179272017026, 1311972110282519),
  (107, 443556814486, 1842262935909819), (109, 29269062317, 1673757723659660),
  (141, 318979826258, 626230045449900), (122, 423040027813, 2942950853600),
  (111, 516954029551, 1778273207278420), (100, 352213872761, 1805292954315780),
  (108, 108514212991, 1685848253293320), (106, 196085248410, 7478159856730),
  (110, 230582372873, 1646033352952499), (97, 350918940210, 533390024102160),
  (99, 356417337974, 73587651353180), (94, 501857894228, 312838876509580),
  (97, 165579893894, 53321408344360), (92, 89217162285, 2929661538957860),
  (123, 316062050433, 938095967271720), (102, 120493500565, 2302065308658799),
  (88, 221296088224, 1272157209941700), (89, 154264720310, 2019909495963300),
  (113, 483320707870, 1649636139620240), (121, 619860353182, 938800590941520),
  (89, 408082274765, 2280573556599360), (98, 109181832830, 1204357428188900),
  (86, 113655027605, 14357132428481648), (88, 596980472191, 10766352393860),
  (82, 501340404594, 2200391463486980), (94, 169615700473, 2300642599258639),
  (81, 300657814365, 211876386037840), (98, 139215287161, 866224032356300),
  (77, 333555190840, 1572083878487840), (82, 586880116464, 278704302385740),
  (76, 567183650604, 1422709400160), (81, 616619455699, 103902661079040),
  (76, 321449884756, 11118664228760), (78, 137531518377, 2194711137270000),
  (74, 358814195051, 1160986254401220), (77, 484846488388, 2274340937951640),
  (90, 148869013606, 1567108175940660), (82, 348618399109, 2908881141598500),
  (69, 355746476593, 459091018048900), (69, 193625656075, 13562532501000),
  (70, 266548322237, 1887552586977400), (69, 541478093731, 2673594526221320),
  (79, 515154513662, 1232342309600880), (94, 362899392448, 7771377146812050),
  (78, 417011182047, 106649547719000), (71, 389435637865, 2277943724619380),
  (63, 453968787714, 898281066930900), (69, 96028230548, 1491901785375460),
  (76, 329092216589, 294246342329160), (63, 409167842893, 1606218452611680),
  (65, 334580407184, 5128033786241), (65, 575757544877, 5267006959330260),
  (68, 575884067555, 2142446664430340), (57, 545122399850, 1259245001978260),
  (57, 525043362558, 2099539296644940), (73, 53299090807, 230158581590939),
  (70, 431243357502, 1940279695281660), (67, 253852336668, 37737360791580),
  (56, 320816844695, 2488957479599160), (53, 317816599142, 1845107854656599),
  (53, 361529270216, 7767377042800), (53, 45467549335, 3066615495843280),
  (61, 14807288453, 2301353953958720), (51, 332803972907, 5689837493560),
  (52, 341177624177, 2314155838292460), (58, 313638677202, 30927832265580),
  (70, 250592323465, 3141537924995700), (52, 510673376738, 1779695916678580),
  (67, 627917920454, 2234526037610820), (50, 42577644151, 2568587280280800),
  (48, 70204553333, 116247470440780), (66, 364350022359, 1526588651930040),
  (50, 574382917440, 1966976089979), (50, 469825387775, 2823723345938940),
  (47, 574015846442, 1213955350910680), (54, 197301333704, 2358125817731760),
  (49, 498223579027, 1002183728009940), (46, 541431705539, 3301902111220460),
  (51, 123882053879, 1253985338018300), (46, 241369976086, 9806853671630539),
  (44, 80750593746, 16728376158766549), (45, 439613584445, 43371173787680),
  (44, 257358208785, 1296430070339100), (46, 26142733448, 1104570026390),
  (45, 246230645202, 5186824866217880), (48, 89551707131, 5660027928952220),
  (57, 186416707010, 2528772379939980), (42, 526377513431, 2608402180621620),
  (49, 317757670611, 630385124548380), (52, 365266055509, 787214874527520)]

/-- `vsop87d_dict.py` 9481-9521. -/
def earthL1_3 : List (ℕ × ℕ × ℕ) := [
  (40, 181891629936, 3459636465465240), (43, 194164978061, 190343681250120),
  (41, 74461854136, 2393785638974100), (48, 626034008181, 2828699048486120),
  (45, 545575017530, 6053048898574180), (40, 292105728682, 2154896236929180),
  (40, 4502010161, 3852657435087200), (53, 364791042082, 1192527409260060),
  (41, 504048954693, 2783203821928320), (42, 519292937193, 1900464794940840),
  (40, 257120233428, 2435678078864160), (38, 349190341464, 22685823855437008),
  (39, 461184303844, 9597922721780), (43, 220648228147, 1352175144159140),
  (40, 583461945819, 1619365917750039), (45, 373714372195, 787567186362420),
  (43, 114078465002, 4975702547180), (37, 129390383811, 31084079886840),
  (38, 95970925950, 66475604513000), (37, 427532649462, 670967404086740),
  (38, 220108541046, 2862833622609960), (39, 85957361635, 1652265971600220),
  (40, 435214003837, 4873985989708300), (36, 168167662194, 1034429506538580),
  (40, 513217319067, 1566403552270859), (36, 372187132496, 3077450164257480),
  (36, 332158458257, 1620788627150200), (45, 394202418608, 1098880815753500),
  (39, 151948786199, 1202934718788740), (26, 387685883180, 626272053059260),
  (24, 491804163466, 1965104848109800), (23, 29300197709, 1336244970679920),
  (21, 318605672363, 627755292568400), (21, 607546891132, 1813929450141590),
  (22, 231199937177, 630343116939020), (21, 358418394393, 1820933026366019),
  (26, 206801296900, 1257326524698360), (21, 156857722317, 1334167431130680),
  (24, 572605158675, 2986433402730900), (24, 140237993205, 1471231711645800),
  (25, 571466092822, 2593412433108940)]

/-- `vsop87d_dict.py` 9180-9522. -/
def earthL1 : List (ℕ × ℕ × ℕ) := List.flatten [
  earthL1_0, earthL1_1, earthL1_2, earthL1_3]

/-- `vsop87d_dict.py` 9524-9623. -/
def earthL2_0 : List (ℕ × ℕ × ℕ) := [
  (52918870, 0, 0), (8719837, 107209665242, 628307584999140),
  (309125, 86728818832, 1256615169998280), (27339, 5297871691, 352311834900),
  (16334, 518826691036, 2629831979980), (15752, 368457889430, 15542039943420),
  (9541, 75742297675, 1884922754997420), (8937, 205705419118, 7771377146812050),
  (6952, 82673305410, 77552261132400), (5064, 466284525271, 157734354244780),
  (4061, 103057162962, 711354700080), (3463, 514074632811, 79629800681640),
  (3169, 605291851171, 550755323866740), (3020, 119246506441, 24272860397400),
  (2886, 611652627155, 52969096509460), (3810, 344050803490, 557314280143310),
  (2714, 30637881025, 39814900340820), (2371, 438118838167, 522369391980220),
  (2538, 227992810679, 55356940284240), (2079, 375435330484, 98032106820),
  (1675, 90216407959, 95171840625060), (1534, 575900462759, 134986740965880),
  (1224, 297328088405, 214616541647520), (1449, 436415913970, 174801641306700),
  (1341, 372061130861, 119444701022460), (1254, 294846826628, 643849624942560),
  (999, 598640014468, 628659896834040), (917, 479788687522, 508862883976680),
  (828, 331321076572, 21329909543800), (1103, 127104454479, 16100068573767410),
  (762, 341582762988, 548677784317500), (1044, 60409577691, 315468708489560),
  (887, 523465144638, 708489678111520), (645, 160096192515, 254431441988340),
  (681, 343155669169, 469400295470760), (605, 247806340546, 1097707880469900),
  (706, 619393222575, 469047983635860), (643, 198042503148, 80182093112380),
  (502, 144394375363, 683664525283380), (490, 234129524194, 159259601363280),
  (458, 130876448575, 429233083295040), (431, 3526421494, 723479425624200),
  (379, 317030522615, 630937416979120), (348, 99049550009, 604034724601740),
  (386, 157019797263, 7143069561812909), (347, 67013291338, 105938193018920),
  (458, 381499443681, 14985440013480789), (302, 191760044838, 1044738783960440),
  (307, 355343347416, 803109226305840), (395, 493701776616, 763294325965020),
  (314, 318093696547, 235286615377180), (282, 441936437052, 943776293488700),
  (276, 271314254553, 389418182954220), (298, 252037474210, 612765545055720),
  (230, 137790215549, 470573230754360), (252, 55330133471, 627955273164240),
  (255, 526570187369, 681276681508600), (275, 67264264272, 2513230339996560),
  (178, 92820785174, 199074501704100), (221, 63897368842, 625677753019160),
  (155, 77319790838, 1414349524243060), (150, 240470465561, 42659819087600),
  (196, 606877865012, 64087760738220), (137, 221679460145, 842924126646660),
  (127, 326094223174, 1778984561978500), (128, 547237279946, 1203646073488820),
  (122, 216291082757, 1021328554621100), (118, 45789822268, 705859846131540),
  (141, 234932647403, 1150676976979360), (100, 85621569847, 629018939699220),
  (92, 510587476002, 707937385680780), (126, 265428307012, 8886005707098669),
  (106, 585646710022, 786041939243920), (84, 357457554262, 1673046368959580),
  (89, 421433259618, 8399684731811189), (97, 557938280855, 1336797263110660),
  (102, 205853060226, 8730820453981), (80, 473792651816, 1192625441366880),
  (80, 541418965044, 1097355568635000), (106, 410978997399, 349603282613400),
  (102, 362650006043, 24428760000722769), (75, 489483161769, 564317856367740),
  (87, 42863750683, 1101510647733480), (69, 188908760720, 1017725767953360),
  (89, 135567273119, 668122485339960), (66, 99455837265, 652580445396540),
  (67, 551240997070, 309788382272579), (76, 272016814799, 416431198961300),
  (63, 144349902540, 991769687450980), (78, 351469733747, 1185621865142450),
  (85, 50956043858, 1057540668294180), (67, 362043033405, 1649636139620240),
  (55, 524637517308, 334061242669980), (48, 543966777314, 2042657109242200),
  (64, 579535817813, 238889402044920), (46, 543499966519, 627596230299060),
  (50, 386263598617, 572950644714900), (44, 152269529228, 1216800269657460),
  (57, 496352373486, 1494531617355440), (45, 100861230160, 863594200376320)]

/-- `vsop87d_dict.py` 9624-9665. -/
def earthL2_1 : List (ℕ × ℕ × ℕ) := [
  (43, 330685683359, 977910867612540), (42, 63481258930, 269973481931760),
  (41, 567996766641, 1171295531823080), (56, 434024451468, 9095555169449610),
  (41, 581722212845, 70993304855830), (53, 617052087143, 23314131440436149),
  (37, 312495025087, 1620077272450120), (35, 576973458495, 1256967481833180),
  (37, 31656444326, 2435678078864160), (35, 96229051027, 1729818232732620),
  (33, 523130355867, 533135744374080), (35, 62517020593, 2515860171976540),
  (35, 80004512129, 1391601910964160), (37, 289336088688, 1272157209941700),
  (30, 450198402401, 2354323050468179), (30, 531355708693, 1831953658487960),
  (29, 347275229977, 1311972110282519), (29, 311002782516, 413691043351620),
  (32, 552273255667, 575338488489680), (35, 379699996680, 14357132428481648),
  (26, 150634201907, 15471760988768269), (30, 353519084118, 628405617105960),
  (23, 441808025967, 588492684658320), (25, 138477355808, 6514761976813770),
  (23, 349782549797, 747752286021600), (19, 314329413716, 649637494542940),
  (19, 220135125199, 1807370493865020), (19, 495020255309, 393020969621960),
  (19, 57998702747, 3141537924995700), (21, 175474323399, 1213955350910680),
  (19, 392233070499, 1965104848109800), (14, 98131213224, 1255903815298200),
  (19, 493309333729, 294246342329160), (16, 555997534558, 882739026987480),
  (13, 168808165516, 453505943692440), (13, 33982116161, 493320844033260),
  (12, 185426309994, 585647765911540), (10, 482763996845, 1309584266507740),
  (11, 538005490571, 1179062908865880), (10, 140815507226, 1098880815753500),
  (11, 305005267431, 1726015465469040), (10, 493364992366, 1235285260454480)]

/-- `vsop87d_dict.py` 9523-9666. -/
def earthL2 : List (ℕ × ℕ × ℕ) := List.flatten [
  earthL2_0, earthL2_1]

/-- `vsop87d_dict.py` 9668-9689. -/
def earthL3_0 : List (ℕ × ℕ × ℕ) := [
  (289226, 584384198723, 628307584999140), (34955, 0, 0),
  (16819, 548766912348, 1256615169998280), (2962, 519577265202, 15542039943420),
  (1288, 472200252235, 352311834900), (635, 596925937141, 24272860397400),
  (714, 530045809128, 1884922754997420), (402, 378682982419, 55356940284240),
  (72, 429768126180, 628659896834040), (67, 90721687647, 612765545055720),
  (36, 524029648014, 643849624942560), (24, 516003960716, 2513230339996560),
  (23, 301921570335, 630937416979120), (17, 582863573502, 652580445396540),
  (17, 367772863930, 7143069561812909), (9, 458467294499, 157734354244780),
  (8, 140626662824, 1185621865142450), (8, 507561257196, 625677753019160),
  (7, 282473374405, 8399684731811189), (5, 271488713339, 1097707880469900),
  (5, 376879847273, 1203646073488820), (5, 428412873331, 627596230299060)]

/-- `vsop87d_dict.py` 9667-9690. -/
def earthL3 : List (ℕ × ℕ × ℕ) := earthL3_0

/-- `vsop87d_dict.py` 9692-9702. -/
def earthL4_0 : List (ℕ × ℕ × ℕ) := [
  (114084, 314159265359, 0), (7717, 413446589358, 628307584999140),
  (765, 383803776214, 1256615169998280), (420, 41925861858, 15542039943420),
  (40, 359847585840, 1884922754997420), (41, 314398414077, 352311834900),
  (35, 500298940826, 557314280143310), (13, 48794833701, 7771377146812050),
  (10, 564801766350, 612765545055720), (8, 284160570605, 16100068573767410),
  (2, 54912904658, 643849624942560)]

/-- `vsop87d_dict.py` 9691-9703. -/
def earthL4 : List (ℕ × ℕ × ℕ) := earthL4_0

/-- `vsop87d_dict.py` 9705-9709. -/
def earthL5_0 : List (ℕ × ℕ × ℕ) := [
  (878, 314159265359, 0), (172, 276579069510, 628307584999140),
  (50, 201353298182, 15542039943420), (28, 221496423926, 1256615169998280),
  (5, 175600058765, 1884922754997420)]

/-- `vsop87d_dict.py` 9704-9710. -/
def earthL5 : List (ℕ × ℕ × ℕ) := earthL5_0

/-- `vsop87d_dict.py` 8618-9711 `_planets[("Earth", "L")]`. -/
def earthL : List (List (ℕ × ℕ × ℕ)) :=
  [earthL0, earthL1, earthL2, earthL3, earthL4, earthL5]

/-- `vsop87d_dict.py` 9714-9813. -/
def earthB0_0 : List (ℕ × ℕ × ℕ) := [
  (279620, 319870156017, 8433466158130829), (101643, 542248619256, 550755323866740),
  (80445, 388013204458, 522369391980220), (43806, 370444689758, 235286615377180),
  (31933, 400026369781, 157734354244780), (22724, 398473831560, 104774731175470),
  (16392, 356456119782, 585647765911540), (18141, 498367470263, 628307584999140),
  (14443, 370275614914, 943776293488700), (14304, 341117857525, 1021328554621100),
  (11246, 482820690530, 1414349524243060), (10900, 208574562327, 681276681508600),
  (9714, 347303947752, 469400295470760), (10367, 405663927946, 7109288135493269),
  (8775, 444016515669, 575338488489680), (8366, 499251512180, 708489678111520),
  (6921, 432559054073, 627596230299060), (9145, 114182646613, 662089011318780),
  (7194, 360193205752, 52969096509460), (7698, 555425745881, 16762157585086189),
  (5285, 248446991566, 470573230754360), (5208, 624992674537, 1807370493865020),
  (4529, 233827747356, 630937416979120), (5579, 441023653738, 786041939243920),
  (4743, 70995680136, 588492684658320), (4301, 110255777773, 668122485339960),
  (3849, 182229412531, 548677784317500), (4093, 511700141207, 1336797263110660),
  (3681, 43793170356, 315468708489560), (3420, 542034800952, 606977675455340),
  (3617, 604641937526, 393020969621960), (3670, 458210192227, 1219403291462090),
  (2918, 195463881126, 1097707880469900), (2797, 561259275048, 1179062908865880),
  (2502, 60499729367, 649637494542940), (2319, 501648216014, 105938193018920),
  (2684, 139470396488, 2200391463486980), (2428, 324183056052, 7805158573131690),
  (2120, 430691000285, 564317856367740), (2257, 315557225618, 9061773743129970),
  (1813, 375574218285, 334061242669980), (2226, 279699346659, 1203646073488820),
  (1888, 86991545823, 863594200376320), (1517, 195852055701, 39814900340820),
  (1581, 319976230948, 508862883976680), (1421, 625530883827, 254431441988340),
  (1595, 25619915135, 1729818232732620), (1391, 469964175561, 705859846131540),
  (1478, 281808207569, 2593412433108940), (1481, 365823554806, 1150676976979360),
  (1693, 495689385293, 15647529024799570), (1183, 129343061246, 77552261132400),
  (1114, 237889311846, 373876143010800), (994, 430088900425, 922553927328300),
  (924, 306451026812, 416431198961300), (867, 55606931068, 842924126646660),
  (988, 597286104208, 707937385680780), (824, 150984806173, 1044738783960440),
  (915, 12635654592, 1101510647733480), (742, 199159139281, 2608790314157420),
  (1039, 314159265359, 0), (850, 424120016095, 2986433402730900),
  (755, 289631873320, 473203062734340), (714, 137548118603, 214616541647520),
  (708, 191406542362, 803109226305840), (746, 57893808616, 79629800681640),
  (802, 512339137230, 294246342329160), (751, 167479850166, 2122839202354580),
  (602, 409976538826, 6480980550494129), (594, 349580704962, 1649636139620240),
  (592, 459481504319, 469047983635860), (530, 573979295200, 882739026987480),
  (503, 566433137112, 3379454372352860), (483, 157106522411, 80182093112380),
  (438, 6707733767, 312838876509580), (423, 286944595927, 1256615169998280),
  (504, 326207669160, 763294325965020), (552, 102926440457, 23976220451754928),
  (427, 367434378210, 21329909543800), (404, 146193297142, 1572083878487840),
  (503, 485802444134, 629018939699220), (417, 81920713533, 521658037280140),
  (365, 1002966162, 1216800269657460), (363, 128376436579, 620680977871580),
  (353, 470059133110, 723479425624200), (415, 96862624175, 413691043351620),
  (387, 309145061418, 2515860171976540), (373, 265119262792, 734245778018060),
  (361, 297762937739, 962368827669120), (418, 375759994446, 523080746680300),
  (396, 122507712354, 643849624942560), (322, 121162178805, 866224032356300),
  (284, 564170320068, 158907289528380), (379, 172248432748, 1494531617355440),
  (320, 394161159962, 733082316174610), (313, 547602376446, 119444701022460),
  (292, 138971327603, 1176985369316640), (305, 80429352049, 3772475341974820),
  (257, 581382809757, 42659819087600), (265, 610358507671, 683664525283380)]

/-- `vsop87d_dict.py` 9814-9897. -/
def earthB0_1 : List (ℕ × ℕ × ℕ) := [
  (250, 456452895547, 747752286021600), (266, 262926282354, 723867559160000),
  (263, 622089501237, 613351265285680), (306, 279682380531, 174801641306700),
  (236, 246093023714, 1137170468975820), (316, 162662805006, 25090849012041549),
  (216, 368721275185, 584936411211460), (230, 36165162947, 586359120611620),
  (233, 503509933858, 2042657109242200), (200, 586073159059, 453505943692440),
  (277, 465400292395, 8223916695779889), (209, 372323200804, 1097355568635000),
  (199, 505186622555, 542987946823940), (256, 240923279770, 1965104848109800),
  (210, 450691909144, 2908881141598500), (181, 600294783127, 429233083295040),
  (249, 12900984422, 15437979562448629), (209, 387759458598, 1778984561978500),
  (225, 318339652605, 1887552586977400), (191, 453897489299, 1847710876461230),
  (172, 209694183014, 1309584266507740), (182, 316107943500, 1673046368959580),
  (188, 222746128596, 4165496311596780), (164, 518686275017, 548125491886760),
  (160, 249298855159, 1259245001978260), (155, 159595438230, 1002183728009940),
  (135, 21349051064, 1098880815753500), (178, 380375177970, 2358125817731760),
  (123, 166800739151, 1511046611986620), (122, 272678272244, 1884922754997420),
  (126, 117675512910, 1491901785375460), (142, 395053441332, 33781426319640),
  (116, 606340906229, 670967404086740), (137, 352143246757, 1213955350910680),
  (136, 292179113542, 3221720018108080), (110, 351203379263, 1805292954315780),
  (147, 463371971408, 2280573556599360), (108, 545280814878, 711354700080),
  (148, 65447253687, 9548094718417450), (119, 592110458985, 3301902111220460),
  (110, 534824206306, 63989728631400), (106, 371081682629, 1431416811304980),
  (139, 617607198418, 2435678078864160), (118, 559738712670, 16133850000087050),
  (117, 365065271640, 4558517281218740), (127, 474596574209, 4951538250840700),
  (120, 104211499785, 691585958930460), (120, 560638811846, 565029211067820),
  (115, 310668213289, 1471231711645800), (99, 69018940049, 1277945079542080),
  (97, 107908724794, 991769687450980), (93, 262295197319, 1726015465469040),
  (99, 445774681732, 493320844033260), (123, 137488922089, 2828699048486120),
  (121, 519767249813, 2751146787353720), (105, 87192267806, 7737595720492408),
  (87, 393637812950, 1765478053974960), (122, 223956068680, 8399709113559539),
  (87, 418201600952, 2277943724619380), (104, 459580877295, 134986740965880),
  (102, 283545248411, 1235285260454480), (102, 397386522171, 1081813528691580),
  (101, 432892825857, 3614740987730040), (94, 500001709261, 15019221439800429),
  (77, 397199369296, 159259601363280), (100, 607733097102, 2673594526221320),
  (86, 526029638250, 2831328880466100), (93, 431900620254, 4480965020086340),
  (76, 622743405935, 1352175144159140), (72, 155820597747, 625677753019160),
  (82, 495202664555, 1057540668294180), (82, 169647647075, 199074501704100),
  (75, 229836095644, 363462102451840), (75, 266367876557, 1620077272450120),
  (87, 26630214764, 3144167756975680), (77, 225530954137, 523532853823670),
  (76, 109869730846, 1290396596317920), (58, 428246138307, 1255903815298200),
  (64, 551112830114, 17390465170085328), (56, 260133794851, 7318837597844210),
  (55, 581483150022, 14323351002162008), (54, 338482031504, 32304911878710288),
  (39, 328500401343, 7176850988132549), (39, 311239910690, 9690081328129109)]

/-- `vsop87d_dict.py` 9713-9898. -/
def earthB0 : List (ℕ × ℕ × ℕ) := List.flatten [
  earthB0_0, earthB0_1]

/-- `vsop87d_dict.py` 9900-9998. -/
def earthB1_0 : List (ℕ × ℕ × ℕ) := [
  (9030, 389729061890, 550755323866740), (6177, 173038850355, 522369391980220),
  (3800, 524404145734, 235286615377180), (2834, 247345037450, 157734354244780),
  (1817, 41874743765, 628307584999140), (1499, 183320979291, 585647765911540),
  (1466, 569401926017, 575338488489680), (1301, 218890066314, 943776293488700),
  (1233, 495222451476, 1021328554621100), (1021, 12866660208, 786041939243920),
  (982, 9005453285, 1414349524243060), (865, 173949953555, 393020969621960),
  (581, 226949174067, 588492684658320), (524, 565662503159, 52969096509460),
  (473, 622750969242, 630937416979120), (451, 153288619213, 1807370493865020),
  (364, 361614477374, 1336797263110660), (372, 322470721320, 627596230299060),
  (268, 234341267879, 1179062908865880), (322, 94084045832, 606977675455340),
  (232, 26781182579, 705859846131540), (216, 605952221329, 1097707880469900),
  (232, 293325646109, 2200391463486980), (204, 386264841382, 649637494542940),
  (202, 281892511133, 1572083878487840), (185, 493512381859, 1203646073488820),
  (220, 399305643742, 681276681508600), (166, 174970002999, 1150676976979360),
  (212, 157166285369, 469400295470760), (157, 108259734788, 564317856367740),
  (154, 599434678412, 548677784317500), (144, 523285656085, 7805158573131690),
  (144, 116454655948, 9061773743129970), (137, 267760436027, 629018939699220),
  (180, 206509026215, 708489678111520), (121, 590212574947, 922553927328300),
  (150, 200175038718, 523080746680300), (149, 506157254516, 1729818232732620),
  (118, 539979058038, 334061242669980), (161, 332421999691, 628331966747490),
  (121, 436722193162, 1965104848109800), (116, 583462858507, 470573230754360),
  (128, 435489873365, 2593412433108940), (143, 0, 0),
  (109, 252157834166, 643849624942560), (99, 270727488041, 521658037280140),
  (103, 93782340879, 882739026987480), (82, 429214680390, 863594200376320),
  (79, 224085737326, 105938193018920), (97, 550959692365, 2986433402730900),
  (72, 21891639822, 2122839202354580), (71, 286755026812, 668122485339960),
  (74, 220184828895, 3772475341974820), (63, 445586625948, 707937385680780),
  (61, 63918772258, 3379454372352860), (47, 209070235724, 312838876509580),
  (47, 332543843300, 2608790314157420), (49, 160680905005, 670256049386660),
  (57, 11215813438, 2908881141598500), (56, 547982934911, 77552261132400),
  (50, 189396788463, 1213955350910680), (47, 297214907240, 2042657109242200),
  (41, 555329394890, 1101510647733480), (41, 591861144924, 2358125817731760),
  (45, 495273290181, 586359120611620), (50, 362740835096, 4165496311596780),
  (37, 609033460601, 6480980550494129), (37, 586153655431, 1256615169998280),
  (46, 165798680284, 2515860171976540), (38, 200673650251, 42659819087600),
  (36, 624373396652, 628314316029419), (36, 40465162918, 628300853968860),
  (32, 603707103538, 294246342329160), (41, 486809570283, 159259601363280),
  (28, 438359423735, 763294325965020), (28, 603334294232, 1778984561978500),
  (26, 388971333608, 533135744374080), (26, 594932724051, 1649636139620240),
  (31, 144666331503, 1673046368959580), (26, 626376705837, 2354323050468179),
  (33, 93797239147, 21329909543800), (26, 371858432944, 1309584266507740),
  (27, 60565274405, 1098880815753500), (23, 444388985550, 1884922754997420),
  (28, 153862289477, 627948542133960), (28, 196831814872, 628666627864320),
  (28, 578094918529, 1511046611986620), (26, 248165809843, 572950644714900),
  (20, 385655029499, 962368827669120), (21, 583006047147, 723479425624200),
  (21, 69628570421, 39814900340820), (22, 502222806555, 612765545055720),
  (20, 347611265290, 614801076995600), (20, 90769829044, 548125491886760),
  (20, 3081589303, 641814093002680), (20, 374220084927, 158907289528380),
  (21, 400149269576, 315468708489560), (18, 158348238359, 211876386037840),
  (19, 85407021371, 1471231711645800)]

/-- `vsop87d_dict.py` 9899-9999. -/
def earthB1 : List (ℕ × ℕ × ℕ) := earthB1_0

/-- `vsop87d_dict.py` 10001-10049. -/
def earthB2_0 : List (ℕ × ℕ × ℕ) := [
  (1662, 162703209173, 8433466158130829), (492, 241382223971, 104774731175470),
  (344, 224353004539, 550755323866740), (258, 600906896311, 522369391980220),
  (131, 95447345240, 628307584999140), (86, 167530247303, 786041939243920),
  (90, 97606804452, 157734354244780), (90, 37899871725, 235286615377180),
  (89, 625807507963, 1021328554621100), (75, 84213523741, 16762157585086189),
  (52, 170501566089, 1414349524243060), (57, 615295833679, 1219403291462090),
  (51, 127616016740, 575338488489680), (51, 537229738682, 681276681508600),
  (34, 173672994279, 705859846131540), (38, 277761031485, 1098880815753500),
  (46, 338617099014, 15647529024799570), (21, 195248349228, 882739026987480),
  (18, 333419222028, 842924126646660), (19, 432945160287, 1778984561978500),
  (17, 66191210656, 628300853968860), (18, 374885333072, 1176985369316640),
  (17, 423058370776, 1097707880469900), (17, 178116162721, 548677784317500),
  (21, 136972913918, 1203646073488820), (17, 279601092529, 79629800681640),
  (15, 43087848850, 1179062908865880), (17, 135132152761, 7805158573131690),
  (15, 117032155085, 21329909543800), (18, 285221514199, 508862883976680),
  (17, 21780913672, 628314316029419), (13, 121201504386, 2513230339996560),
  (12, 112953712197, 9061773743129970), (12, 513714452592, 707937385680780),
  (13, 379842135217, 493320844033260), (12, 489407978213, 373876143010800),
  (15, 605682328852, 39814900340820), (14, 481029291856, 469400295470760),
  (11, 61684523405, 312838876509580), (11, 532876538500, 604034724601740),
  (14, 527227350286, 453505943692440), (11, 239292099451, 533135744374080),
  (10, 445296532710, 652580445396540), (14, 466400985037, 803109226305840),
  (10, 322472385926, 943776293488700), (11, 380913404437, 80182093112380),
  (10, 515032130575, 1137170468975820), (13, 98720797401, 572950644714900),
  (9, 594191743597, 763294325965020)]

/-- `vsop87d_dict.py` 10000-10050. -/
def earthB2 : List (ℕ × ℕ × ℕ) := earthB2_0

/-- `vsop87d_dict.py` 10052-10062. -/
def earthB3_0 : List (ℕ × ℕ × ℕ) := [
  (11, 23877262399, 786041939243920), (9, 116069982609, 550755323866740),
  (8, 165357552925, 588492684658320), (8, 286720038197, 705859846131540),
  (7, 304818741666, 548677784317500), (7, 259437103785, 52969096509460),
  (8, 402863090524, 625677753019160), (8, 242003508927, 575338488489680),
  (6, 84181087594, 627596230299060), (6, 540160929468, 157734354244780),
  (7, 273399865247, 630937416979120)]

/-- `vsop87d_dict.py` 10051-10063. -/
def earthB3 : List (ℕ × ℕ × ℕ) := earthB3_0

/-- `vsop87d_dict.py` 10065-10069. -/
def earthB4_0 : List (ℕ × ℕ × ℕ) := [
  (4, 79662198849, 643849624942560), (5, 84308705203, 104774731175470),
  (5, 5711572303, 8433466158130829), (3, 346779895686, 627955273164240),
  (3, 289822201212, 612765545055720)]

/-- `vsop87d_dict.py` 10064-10070. -/
def earthB4 : List (ℕ × ℕ × ℕ) := earthB4_0

/-- `vsop87d_dict.py` 9712-10071 `_planets[("Earth", "B")]`. -/
def earthB : List (List (ℕ × ℕ × ℕ)) :=
  [earthB0, earthB1, earthB2, earthB3, earthB4]

/-- `vsop87d_dict.py` 10074-10173. -/
def earthR0_0 : List (ℕ × ℕ × ℕ) := [
  (100013988799, 0, 0), (1670699626, 309846350771, 628307584999140),
  (13956023, 305524609620, 1256615169998280), (3083720, 519846674381, 7771377146812050),
  (1628461, 117387749012, 575338488489680), (1575568, 284685245825, 786041939243920),
  (924799, 545292234084, 1150676976979360), (542444, 456409149777, 393020969621960),
  (472110, 366100022149, 588492684658320), (328780, 589983646482, 522369391980220),
  (345983, 96368617687, 550755323866740), (306784, 29867139512, 557314280143310),
  (174844, 301193636534, 1884922754997420), (243189, 427349536153, 1179062908865880),
  (211829, 584714540314, 157734354244780), (185752, 502194447178, 1097707880469900),
  (109835, 505510636285, 548677784317500), (98316, 88681311277, 606977675455340),
  (86499, 568959778254, 1572083878487840), (85825, 127083733351, 16100068573767410),
  (62916, 92177108832, 52969096509460), (57056, 201374292014, 8399684731811189),
  (64903, 27250613787, 1726015465469040), (49384, 324501240359, 254431441988340),
  (55736, 524159798933, 7143069561812909), (42515, 601110242003, 627596230299060),
  (46963, 257805070386, 77552261132400), (38968, 536071738169, 469400295470760),
  (44661, 553715807302, 943776293488700), (35660, 167468058995, 1203646073488820),
  (31921, 18368229781, 508862883976680), (31846, 177775642085, 39814900340820),
  (33193, 24370300098, 708489678111520), (38245, 239255343974, 882739026987480),
  (28464, 121344868176, 628659896834040), (37490, 82952922332, 1965104848109800),
  (36957, 490107591914, 1213955350910680), (34537, 184270693282, 294246342329160),
  (26275, 458896850401, 1044738783960440), (24596, 378660875483, 842924126646660),
  (23587, 26866117066, 79629800681640), (27793, 189934330904, 627955273164240),
  (23927, 499598548138, 585647765911540), (20349, 465267995431, 214616541647520),
  (23287, 280783650928, 1414349524243060), (22103, 195004702988, 315468708489560),
  (19506, 538227371393, 235286615377180), (17958, 19871379385, 681276681508600),
  (17174, 443315560735, 1021328554621100), (16190, 523160507859, 1778984561978500),
  (17314, 615200787916, 1673046368959580), (13814, 518962074032, 803109226305840),
  (18833, 67306674027, 14985440013480789), (18331, 225348733734, 2358125817731760),
  (13641, 368516118804, 470573230754360), (13139, 65289581324, 1336797263110660),
  (10414, 433285688538, 1176985369316640), (9978, 420126336355, 630937416979120),
  (10169, 159390681369, 469047983635860), (7564, 262560597390, 625677753019160),
  (9661, 367586791220, 2751146787353720), (6743, 56270332741, 334061242669980),
  (8743, 606359123461, 174801641306700), (7786, 367371235637, 1216800269657460),
  (6633, 566149277792, 1137170468975820), (7712, 31242577789, 763294325965020),
  (6592, 313576266188, 80182093112380), (7460, 564757188143, 1192625441366880),
  (6933, 292384586400, 668122485339960), (6802, 142329806420, 2301353953958720),
  (6115, 513393615454, 119444701022460), (6477, 264986648492, 1980482729158280),
  (5233, 462434053374, 643849624942560), (6147, 302863936662, 23314131440436149),
  (4608, 172194702724, 723479425624200), (4221, 155697533729, 723867559160000),
  (5314, 240716580847, 1149965622279280), (5128, 532398965690, 1151388331679440),
  (4770, 25554312006, 1185621865142450), (5519, 209089154502, 1729818232732620),
  (5625, 434052903053, 9095555169449610), (4578, 446569641570, 574627133789600),
  (3788, 490729383510, 416431198961300), (5337, 509957905104, 3144167756975680),
  (3967, 120054555174, 134986740965880), (4008, 303007204392, 105938193018920),
  (3476, 76080277030, 1097355568635000), (4232, 105485713117, 576049843189760),
  (4582, 376570026763, 638616862421000), (3335, 313829943354, 683664525283380),
  (3418, 300072390334, 429233083295040), (3598, 570718084323, 564317856367740),
  (3237, 416448773994, 991769687450980), (4154, 259941292162, 705859846131540),
  (3362, 454577697964, 473203062734340), (2978, 130561268820, 628314316029419),
  (2765, 51311975679, 2629831979980), (2802, 566263240521, 863594200376320),
  (2927, 573787481548, 1620077272450120), (3164, 169140262657, 1101510647733480)]

/-- `vsop87d_dict.py` 10174-10273. -/
def earthR0_1 : List (ℕ × ℕ × ℕ) := [
  (2598, 296244118586, 2513230339996560), (3519, 362639325753, 24428760000722769),
  (2676, 420725700850, 1807370493865020), (2978, 174971565805, 628300853968860),
  (2287, 106975704977, 1431416811304980), (2863, 592838131397, 1471231711645800),
  (3071, 23793217002, 3537188726597640), (2656, 89959301780, 1235285260454480),
  (2415, 279975176257, 70993304855830), (2814, 351488206882, 2122839202354580),
  (1977, 261358297550, 95171840625060), (2548, 247684686575, 620829425142410),
  (1999, 56090388160, 707937385680780), (2305, 105376461628, 2248384857449259),
  (1855, 286090681163, 521658037280140), (2157, 131396741861, 15471760988768269),
  (1970, 436929875289, 16728376158766549), (1635, 585571606764, 1098419235169980),
  (1754, 214452408833, 629018939699220), (2154, 603828341543, 1087398603048040),
  (1714, 370157691113, 159259601363280), (1541, 621598380732, 2354323050468179),
  (1611, 199824499377, 1096996525769820), (1712, 134295663542, 312838876509580),
  (1642, 555026665339, 649637494542940), (1502, 543948825854, 15542039943420),
  (1827, 591227480261, 373876143010800), (1726, 216764983583, 1057540668294180),
  (1532, 535683107070, 1352175144159140), (1829, 166006148731, 3930209696219600),
  (1605, 190928637633, 613351265285680), (1282, 246014880418, 1391601910964160),
  (1211, 441360631550, 389418182954220), (1394, 177801929354, 922553927328300),
  (1571, 495512957592, 2515860171976540), (1205, 119212540615, 352311834900),
  (1132, 269830084955, 604034724601740), (1504, 577002730341, 1820933026366019),
  (1393, 162621805428, 512060114558360), (1077, 293931554233, 1725663153634140),
  (1232, 71655165307, 14357132428481648), (1087, 99769687939, 95559974160860),
  (1068, 528472576231, 6514761976813770), (980, 510949204607, 617286952877200),
  (1169, 311664290862, 1494531617355440), (1202, 402992510402, 55356940284240),
  (979, 200000879212, 1511046611986620), (962, 402380771400, 628209552892320),
  (999, 362643002790, 626230045449900), (1030, 584989900289, 21329909543800),
  (1014, 284221578218, 866224032356300), (1185, 151330541132, 1765478053974960),
  (967, 267081017562, 565029211067820), (1222, 265423784904, 8886005707098669),
  (981, 236370360283, 620680977871580), (1033, 13874927606, 1171295531823080),
  (1103, 308477302937, 4323230665841560), (781, 253372735932, 1649636139620240),
  (1019, 304569392376, 603724420376200), (795, 580662989111, 523080746680300),
  (813, 357710279439, 1017725767953360), (962, 531470594766, 628405617105960),
  (721, 596264301567, 1255903815298200), (966, 274714939953, 624494281435360),
  (921, 10155275926, 2908881141598500), (692, 389764447548, 158907289528380),
  (719, 591791450402, 413691043351620), (772, 405505682353, 612765545055720),
  (712, 549291532439, 2200391463486980), (672, 160700490811, 1108728512591840),
  (690, 450539825563, 42659819087600), (854, 326104981596, 2042657109242200),
  (656, 432410182940, 1685848253293320), (840, 259572585222, 2876692442448400),
  (692, 61650089011, 1140367699557500), (700, 340901167143, 711354700080),
  (726, 4243053594, 548125491886760), (557, 478317696534, 2019909495963300),
  (649, 104027912958, 606266320755260), (633, 570229959167, 4589273043315699),
  (592, 611836729658, 962368827669120), (523, 362840021266, 533390024102160),
  (604, 557734696185, 1034429506538580), (496, 221023499449, 199074501704100),
  (691, 196071732602, 1241658850284820), (640, 159074172032, 1831953658487960),
  (625, 382362791378, 1351787010623340), (663, 508444996779, 28385931886520),
  (475, 117025894287, 1256967481833180), (664, 450029469969, 4716251635463520),
  (569, 16310365162, 1726726820169119), (568, 386100969474, 607689030155420),
  (539, 483282276086, 1842262935909819), (466, 75872342878, 734245778018060),
  (541, 307212190507, 22685823855437008), (458, 26774483096, 459091018048900),
  (610, 153597051291, 3301902111220460), (617, 262356328726, 1119037790013700),
  (548, 455798855791, 1887552586977400), (633, 460110281228, 6656748586525429)]

/-- `vsop87d_dict.py` 10274-10373. -/
def earthR0_2 : List (ℕ × ℕ × ℕ) := [
  (596, 578202396722, 63278373931320), (533, 501786882904, 1213243996210600),
  (603, 538458554802, 31642822867391503), (469, 59168241917, 2195415760939799),
  (548, 350613163558, 1725304110768959), (502, 98804327589, 1160986254401220),
  (568, 198497313089, 766863742494250), (482, 162141803864, 1214666705610760),
  (391, 368718382989, 1805292954315780), (457, 377205737340, 15613747598479928),
  (401, 528260651958, 1567108175940660), (469, 180963184268, 1256262858163380),
  (508, 336399024699, 2059724396304120), (450, 566054299250, 1045450138660520),
  (375, 498534633105, 977910867612540), (523, 97215560834, 15542754293624099),
  (403, 513939866506, 155104522264800), (372, 369883738807, 938800590941520),
  (367, 443875659716, 453505943692440), (406, 420863156600, 1259245001978260),
  (360, 253924644657, 24272860397400), (471, 461907324819, 543699301524020),
  (441, 583872966262, 349603282613400), (385, 494496680973, 2435678078864160),
  (349, 615018231784, 1980094595622480), (355, 21895678106, 542987946823940),
  (344, 562993724928, 237916447357160), (380, 272105213143, 1193336796066960),
  (432, 24221790536, 1799603116822220), (378, 522517556974, 747752286021600),
  (337, 510888041439, 584936411211460), (315, 57827745123, 1055759416082380),
  (318, 449953141399, 363462102451840), (323, 154274281393, 1044027429260360),
  (309, 576839284397, 2077539549240), (301, 234727604008, 468688940770680),
  (414, 593237602310, 5109272605085480), (361, 216398609550, 2823723345938940),
  (288, 18376252189, 1309584266507740), (277, 512952205045, 1311972110282519),
  (327, 619222146204, 626884875598980), (273, 30522428863, 2314155838292460),
  (267, 576152585786, 596668398033480), (308, 599280509979, 2280573556599360),
  (345, 292489919444, 3694923080842420), (253, 520995219509, 2407292146977640),
  (342, 572702586209, 1646033352952499), (261, 200304796059, 614801076995600),
  (238, 508264392839, 691585958930460), (249, 294762789744, 13506508003540),
  (306, 389764686987, 1098880815753500), (305, 5827812117, 470111650170840),
  (319, 295712862064, 16309618036118349), (209, 443768461442, 654615977336420),
  (270, 206643178717, 480420927592700), (217, 73691592312, 630385124548380),
  (206, 32075959415, 2593412433108940), (218, 18428135264, 2828699048486120),
  (205, 521312087405, 2099539296644940), (199, 44384292491, 1673757723659660),
  (230, 606567392849, 628700800325450), (219, 129194216300, 532678669402080),
  (201, 174700937253, 2274340937951640), (207, 445440927276, 627948542133960),
  (269, 605640445030, 6447199124174489), (190, 99256176518, 2929661538957860),
  (238, 542471431221, 3960965458316560), (262, 526961924198, 52257741809380),
  (210, 468618183158, 625462666252360), (197, 280624554080, 493320844033260),
  (252, 436220154608, 4087944050464380), (261, 107241516738, 5502293574707440),
  (189, 382966734476, 41948464387520), (185, 414324541379, 564219824260920),
  (247, 344855612987, 670256049386660), (205, 404424043223, 53680451209540),
  (191, 314082686083, 1672335014259500), (222, 516263907319, 2353970738633280),
  (180, 456214752149, 648926139842860), (219, 80382553358, 1662737091537720),
  (227, 60156339452, 590570224207560), (168, 88753528161, 1606218452611680),
  (158, 92127725775, 2393785638974100), (157, 469607868164, 680565326808520),
  (207, 488410451334, 628666627864320), (160, 495943826846, 1002183728009940),
  (166, 97126433565, 309788382272579), (209, 575663411805, 364635037735440),
  (175, 612762824412, 23942439025435288), (173, 313887234973, 617998307577280),
  (157, 362822058179, 1845107854656599), (157, 467695912235, 670967404086740),
  (146, 309506069735, 490730205014560), (165, 227139128760, 1066068693504240),
  (201, 167701267433, 210703450754240), (144, 396947747592, 601999192661860),
  (171, 591302216729, 605873105428950), (144, 213155655120, 2608402180621620),
  (151, 67417383554, 238889402044920), (189, 507122281033, 26308392337280)]

/-- `vsop87d_dict.py` 10374-10473. -/
def earthR0_3 : List (ℕ × ℕ × ℕ) := [
  (146, 510373877968, 1077089325626180), (187, 123915444627, 1940279695281660),
  (174, 8407293391, 938095967271720), (137, 126247412309, 1256621901028560),
  (137, 352826010842, 63989728631400), (148, 176124372592, 588844996493220),
  (164, 239195095081, 635785744855870), (146, 243675816553, 588140372823420),
  (161, 115721259372, 2673594526221320), (131, 251859277344, 659946771964800),
  (153, 585203687779, 628159137728310), (151, 372338532649, 1266924447420140),
  (132, 238417741883, 652580445396540), (129, 75556744143, 501750837136500),
  (127, 254936441, 1002790319572920), (148, 285102145528, 641814093002680),
  (143, 574460279367, 2608790314157420), (172, 41289962240, 17424246596404970),
  (136, 415497742275, 631152503745920), (170, 598194913129, 32757451427678125),
  (124, 165497607604, 3221720018108080), (136, 248430783417, 1334167431130680),
  (165, 249667924600, 5895314544329400), (123, 345660563754, 627755292568400),
  (117, 86065134175, 624504817735560), (149, 561358280963, 572950644714900),
  (153, 26860029950, 24583164622940), (128, 71204006588, 10309277421860),
  (159, 243166592149, 22199502880149524), (130, 280707316718, 601646880826960),
  (137, 170657709294, 1256608438968000), (111, 156305648432, 1778273207278420),
  (113, 358302904101, 2568587280280800), (109, 326403795962, 681988036208680),
  (122, 34120688217, 116247470440780), (119, 584644718278, 1272157209941700),
  (144, 228899679126, 1248988562870720), (137, 582029768354, 4480965020086340),
  (107, 242818544140, 554719933645960), (134, 126539982939, 533135744374080),
  (103, 596518130595, 632110352262720), (109, 33808549034, 1130058422135640),
  (129, 589187277327, 1202934718788740), (122, 577325634636, 1191914086666800),
  (107, 624998989350, 7769075950573849), (107, 100535580713, 7773678343050249),
  (143, 24122178432, 421406901508480), (143, 88529649733, 757656007357400),
  (107, 292124030496, 3141537924995700), (99, 570862227072, 554008578945880),
  (110, 37528037383, 586359120611620), (104, 444107178366, 211876386037840),
  (98, 595877916706, 406121921539440), (113, 124206857385, 8467247584450469),
  (124, 255619029867, 1253985338018300), (110, 366952094329, 23800452415723629),
  (112, 432512422943, 9723862754448749), (97, 370151541181, 1172006886523160),
  (120, 126895630252, 1204357428188900), (94, 256461130309, 1900464794940840),
  (117, 365425622684, 3452030930938080), (98, 13589994287, 1108017157891760),
  (97, 538330115253, 783412107263940), (97, 246722096722, 7198063357473118),
  (95, 536958330451, 628859877429880), (111, 501961920313, 1182316163945020),
  (90, 272299804525, 2688031981303260), (99, 90164266377, 1863592845453620),
  (126, 478722177847, 30528194307104882), (93, 21240380046, 1813929450141590),
  (124, 500979495566, 17214697134054029), (99, 567090026475, 1652265971600220),
  (92, 228180963676, 1249137010141550), (90, 450544881196, 4007761957352000),
  (100, 200639461612, 1232342309600880), (95, 568801979087, 1491901785375460),
  (87, 186043406047, 2770754249429480), (105, 302903468417, 2234526037610820),
  (87, 543970168638, 627203014972750), (89, 163389387182, 3332657873317420),
  (82, 558298993353, 1024120229116720), (94, 547749711149, 992481042151060),
  (82, 471988314145, 1514139079431200), (97, 561458778738, 278704302385740),
  (96, 389073946348, 637905507720920), (81, 313038482444, 3614740987730040),
  (110, 489978492291, 7214062866668739), (97, 520764563059, 630343116939020),
  (82, 526342716139, 981460410029120), (109, 235555589770, 8328691426955358),
  (97, 258492958057, 3066615495843280), (93, 132651591333, 2302065308658799),
  (78, 399588630754, 1129347067435560), (90, 57771932738, 2648217080962440),
  (106, 392012705073, 6288335513951360), (98, 294397773524, 31639186965660),
  (76, 396310417608, 2902648522950779), (78, 197068529306, 9027992316810328),
  (76, 23027966596, 2142446664430340), (80, 223099742212, 26660704172180)]

/-- `vsop87d_dict.py` 10474-10573. -/
def earthR0_4 : List (ℕ × ℕ × ℕ) := [
  (79, 146227790922, 898281066930900), (102, 492129953565, 562184292321040),
  (100, 39243148321, 2427910701821359), (71, 152014858474, 3379454372352860),
  (76, 22880641443, 5737580190084620), (91, 96515913904, 4873985989708300),
  (75, 277638585157, 1296430070339100), (77, 518846946344, 1152099686379520),
  (68, 50006599129, 427451831083240), (75, 207323762803, 1566403552270859),
  (74, 101884134928, 639328217121080), (77, 46665178780, 1620788627150200),
  (81, 410452219483, 16171061878623239), (67, 383840630887, 626272053059260),
  (71, 391415523291, 787567186362420), (81, 91938383237, 7478159856730),
  (83, 469916218791, 2300642599258639), (63, 232556465878, 627919451463340),
  (65, 541938745446, 2862833622609960), (65, 302336771694, 595957043333400),
  (64, 331033198370, 263672547263700), (64, 18375587519, 106649547719000),
  (80, 581239171612, 1234180690428090), (66, 215105504851, 3802767263580),
  (62, 243313614978, 1013810951694860), (60, 316153906470, 549030096152400),
  (69, 30764736334, 701895236352320), (68, 224442548639, 2438307910844140),
  (78, 139649386463, 941146461508720), (63, 72976362625, 628695718534940),
  (73, 495125917731, 645374872061060), (78, 32736023459, 652890749622080),
  (59, 495362151577, 3570771008290740), (70, 237962727525, 1550861512327440),
  (73, 135229143111, 532747610838280), (72, 591833527334, 1088109957748120),
  (59, 536231868425, 1023958386601080), (59, 163156134967, 6130601159706580),
  (54, 429491690425, 2194711137270000), (57, 589190132575, 3451326307268280),
  (74, 138235845304, 996745389998160), (53, 386543309344, 3237097899156560),
  (55, 451794544854, 3491141207609100), (63, 541479412056, 1150283761653050),
  (63, 234416220742, 1151070192305670), (68, 77493931112, 2986433402730900),
  (60, 557024703495, 575690800324580), (72, 280863088166, 1086687248347960),
  (61, 269736991384, 8257698122099529), (63, 532068807257, 311665941225980),
  (52, 102278758099, 627243918464160), (69, 500698550308, 2528772379939980),
  (66, 612047940728, 1207448840752400), (51, 259519527563, 1139656344857420),
  (56, 257995973521, 1789293839400359), (59, 44167237620, 25057067585721909),
  (59, 384070143543, 548325472482600), (49, 54704693048, 2259405489571199),
  (65, 238423614501, 5267006959330260), (69, 534363738671, 6681356483573320),
  (57, 542770501007, 31014515282392364), (53, 117760296075, 14956319713460),
  (61, 402090887211, 3459636465465240), (49, 418361320516, 1860649894600020),
  (55, 83886167974, 2045286941222180), (50, 146327331958, 3745572649597440),
  (48, 453854727167, 2982278323632420), (58, 334847975377, 3399061834428620),
  (65, 145522693982, 7625132777062019), (56, 235650663692, 3772475341974820),
  (52, 261551081496, 599921653112620), (53, 17334326094, 7771729458646949),
  (53, 79879700631, 7771024834977149), (47, 43240779709, 73587651353180),
  (53, 458763261686, 1161697609101300), (48, 620230111054, 417142553661380),
  (52, 109723616404, 64087760738220), (57, 342008310383, 5031720343953080),
  (53, 101528448581, 14914446708624958), (47, 300924906195, 5217580628314840),
  (52, 203254070404, 629371251534120), (48, 12356889734, 1336244970679920),
  (45, 337963782356, 1076377970926100), (47, 550981287869, 1277945079542080),
  (62, 545209070099, 94917560896980), (61, 293237974631, 579141255753260),
  (44, 287440620802, 858466166590080), (46, 403141796560, 1066780048204320),
  (47, 389902931422, 390391137641980), (46, 275700467329, 699300889854970),
  (45, 193386293300, 20618554843720), (47, 257670800912, 1149254267579200),
  (44, 362570223167, 6365887775083760), (51, 84536826273, 1234573905754400),
  (43, 1524970172, 3785387549938260), (41, 327146326065, 885831494432060),
  (45, 303765521215, 6523622129328540), (47, 144447548944, 2139354196985760),
  (58, 545843180927, 197549254585600), (50, 213285524146, 1257326524698360)]

/-- `vsop87d_dict.py` 10574-10599. -/
def earthR0_5 : List (ℕ × ℕ × ℕ) := [
  (41, 132190847146, 254783753823240), (47, 367579608544, 2831328880466100),
  (41, 224013475126, 827382086703240), (47, 621438985953, 1099130589870060),
  (42, 301631817350, 85319638175200), (56, 109773690181, 7737620102240759),
  (40, 235698541041, 269973481931760), (43, 528030898459, 1779695916678580),
  (54, 259175932091, 2291044676536859), (54, 88027764102, 7196038658322369),
  (55, 7988899477, 8346715635301729), (39, 112867321442, 991058332750900),
  (40, 135670430524, 2717785152920020), (39, 439624220245, 561831980486140),
  (42, 478798367468, 785689627409019), (47, 275482175292, 1820221671665939),
  (39, 197008298629, 2449142579258340), (42, 404346599946, 786394251078820),
  (38, 49178679251, 3865017350619900), (36, 486047906533, 415719844261220),
  (43, 564354880978, 106290504853820), (36, 398066313627, 1256517137891460),
  (42, 230753932657, 654968289171320), (40, 539694918320, 949821223063460),
  (40, 330603243754, 2353611695768099), (50, 615760345261, 7805134191383338)]

/-- `vsop87d_dict.py` 10073-10600. -/
def earthR0 : List (ℕ × ℕ × ℕ) := List.flatten [
  earthR0_0, earthR0_1, earthR0_2, earthR0_3, earthR0_4, earthR0_5]

/-- `vsop87d_dict.py` 10602-10701. -/
def earthR1_0 : List (ℕ × ℕ × ℕ) := [
  (103018608, 110748969588, 628307584999140), (1721238, 106442301418, 1256615169998280),
  (702215, 314159265359, 0), (32346, 102169059149, 1884922754997420),
  (30799, 284353804832, 550755323866740), (24971, 131906709482, 522369391980220),
  (18485, 142429748614, 157734354244780), (10078, 591378194648, 1097707880469900),
  (8634, 27146150602, 548677784317500), (8654, 142046854427, 627596230299060),
  (5069, 168613426734, 508862883976680), (4985, 601401770704, 628659896834040),
  (4669, 598724494073, 52969096509460), (4395, 51800238019, 469400295470760),
  (3872, 474969833437, 254431441988340), (3750, 507097685568, 79629800681640),
  (4100, 108424786092, 943776293488700), (3518, 2290216272, 8399684731811189),
  (3436, 94937019624, 7143069561812909), (3221, 615628775313, 214616541647520),
  (3414, 541218322538, 77552261132400), (2863, 548432847146, 1044738783960440),
  (2520, 24276941146, 39814900340820), (2201, 495216196651, 681276681508600),
  (2186, 41991743105, 803109226305840), (2838, 342034351366, 235286615377180),
  (2554, 613241878525, 643849624942560), (1932, 531374608366, 842924126646660),
  (2429, 309164528262, 469047983635860), (1730, 153686208550, 470573230754360),
  (2250, 368863633842, 708489678111520), (2093, 128191783032, 174801641306700),
  (1441, 81656250862, 1414349524243060), (1483, 322225357771, 723479425624200),
  (1754, 322883705112, 627955273164240), (1583, 409702349428, 1149965622279280),
  (1575, 553890170575, 315468708489560), (1847, 182040335363, 763294325965020),
  (1504, 363293385726, 1151388331679440), (1337, 464440864339, 683664525283380),
  (1275, 269341415363, 134986740965880), (1352, 615101580257, 574627133789600),
  (1125, 335673439497, 1778984561978500), (1470, 365282991755, 119444701022460),
  (1177, 257676109092, 1336797263110660), (1101, 449748696552, 429233083295040),
  (1234, 565036509521, 576049843189760), (984, 65517395136, 585647765911540),
  (928, 232420318751, 1021328554621100), (1077, 582812169132, 1203646073488820),
  (916, 76613009583, 1673046368959580), (877, 150137505051, 1192625441366880),
  (1023, 562076589825, 625677753019160), (851, 65709335533, 15542039943420),
  (802, 410519132088, 95171840625060), (857, 141661697538, 575338488489680),
  (994, 114418521187, 105938193018920), (813, 163948433322, 668122485339960),
  (662, 455200452260, 521658037280140), (644, 419478168733, 604034724601740),
  (626, 150767713598, 564317856367740), (590, 618277145205, 416431198961300),
  (635, 52413263542, 629018939699220), (650, 97935690350, 2513230339996560),
  (568, 230125315873, 1097355568635000), (547, 527256412213, 334061242669980),
  (547, 220144422886, 159259601363280), (526, 92464258226, 1137170468975820),
  (490, 590951388655, 389418182954220), (478, 166857963179, 1216800269657460),
  (516, 359803483887, 1096996525769820), (518, 397914412373, 1729818232732620),
  (534, 503740926442, 991769687450980), (487, 250545369269, 612765545055720),
  (416, 404828175503, 1098419235169980), (538, 554081539805, 55356940284240),
  (402, 216544019233, 786041939243920), (553, 232177369366, 1150676976979360),
  (367, 339152532250, 649637494542940), (360, 534379853282, 707937385680780),
  (337, 361563704045, 1179062908865880), (456, 30754294809, 80182093112380),
  (417, 370009308674, 1057540668294180), (381, 582033971802, 705859846131540),
  (321, 31988767355, 1620077272450120), (364, 108414306177, 630937416979120),
  (294, 454798604957, 1185621865142450), (290, 126473978562, 863594200376320),
  (399, 416998866302, 2629831979980), (262, 508316906342, 1017725767953360),
  (243, 225746091190, 1171295531823080), (237, 105070575346, 24272860397400),
  (275, 345319481756, 588492684658320), (255, 538496831087, 2122839202354580),
  (307, 424313526604, 373876143010800), (216, 346037894728, 21329909543800),
  (196, 69029243914, 199074501704100), (198, 516301829964, 1235285260454480),
  (214, 391876200279, 1391601910964160), (212, 400861198517, 523080746680300)]

/-- `vsop87d_dict.py` 10702-10801. -/
def earthR1_1 : List (ℕ × ℕ × ℕ) := [
  (184, 559805976614, 628314316029419), (184, 285275392124, 723867559160000),
  (179, 254259058334, 1431416811304980), (225, 164458698399, 473203062734340),
  (236, 558826125715, 606977675455340), (187, 272805985443, 606266320755260),
  (184, 604216273598, 628300853968860), (230, 362591335086, 628405617105960),
  (163, 219117396803, 1807370493865020), (172, 97612950740, 393020969621960),
  (215, 104672844028, 349603282613400), (169, 475084479006, 1726726820169119),
  (152, 19390712179, 977910867612540), (182, 516288118255, 1725304110768959),
  (149, 80944184260, 70993304855830), (163, 219209570390, 607689030155420),
  (186, 501159497089, 1101510647733480), (134, 97765485759, 6514761976813770),
  (141, 438421981312, 413691043351620), (158, 460974280627, 962368827669120),
  (133, 330508592837, 15471760988768269), (163, 611782626245, 352311834900),
  (174, 158078542187, 711354700080), (141, 49976927274, 2515860171976540),
  (124, 603440460031, 922553927328300), (150, 530166336812, 1351787010623340),
  (127, 192389511438, 2248384857449259), (121, 237813129011, 16728376158766549),
  (120, 398423684853, 468688940770680), (117, 581072642211, 1256967481833180),
  (122, 560973054224, 564219824260920), (157, 340236426002, 1649636139620240),
  (129, 210705116371, 158907289528380), (116, 55839966736, 584936411211460),
  (123, 152961392771, 1255903815298200), (111, 44848279675, 617286952877200),
  (123, 581645568991, 628209552892320), (150, 426278409223, 312838876509580),
  (106, 227437761356, 542987946823940), (104, 442743707728, 2354323050468179),
  (121, 39459045915, 1213243996210600), (104, 241842602527, 42659819087600),
  (110, 580381480447, 1685848253293320), (100, 293805577485, 453505943692440),
  (97, 397935904984, 613351265285680), (110, 622339014386, 1214666705610760),
  (98, 87576563709, 652580445396540), (98, 315248421301, 1044027429260360),
  (95, 246168411100, 309788382272579), (88, 23371480284, 1311972110282519),
  (98, 577016493489, 734245778018060), (92, 603915555063, 2042657109242200),
  (96, 556909292561, 238889402044920), (81, 132131147691, 565029211067820),
  (86, 394529200528, 1045450138660520), (76, 270729716925, 14357132428481648),
  (91, 564100034152, 882739026987480), (76, 180783856698, 2828699048486120),
  (81, 190858992196, 2908881141598500), (75, 340955892978, 548125491886760),
  (69, 449936170873, 1725663153634140), (88, 110098454357, 1176985369316640),
  (66, 278285801977, 53680451209540), (68, 388179770758, 1726015465469040),
  (84, 159303306354, 938095967271720), (88, 388076636762, 747752286021600),
  (61, 617558202197, 1108728512591840), (60, 434824715818, 620680977871580),
  (82, 459843208943, 938800590941520), (79, 163131230601, 493320844033260),
  (78, 420905757484, 572950644714900), (57, 548157926651, 1831953658487960),
  (60, 101261781084, 1272157209941700), (56, 163031935692, 1572083878487840),
  (55, 24926735018, 1511046611986620), (61, 593059279661, 1253985338018300),
  (55, 484298966314, 1309584266507740), (67, 611690589247, 866224032356300),
  (54, 573750638571, 363462102451840), (74, 105466745829, 1646033352952499),
  (53, 229084335688, 1606218452611680), (64, 213513767927, 787567186362420),
  (67, 7096807518, 1494531617355440), (51, 231511194429, 626272053059260),
  (57, 577055471237, 1204357428188900), (56, 441980790431, 470111650170840),
  (59, 587963500073, 533135744374080), (58, 230546168628, 95559974160860),
  (49, 193839278478, 533390024102160), (48, 269973662261, 670967404086740),
  (64, 164379897981, 626230045449900), (46, 398449608961, 9806853671630539),
  (50, 368875893005, 1232342309600880), (45, 330068569697, 2200391463486980),
  (47, 126317154881, 1191914086666800), (45, 89150445122, 5186824866217880),
  (43, 161526242998, 627755292568400), (43, 574295325645, 1140367699557500),
  (44, 343070646822, 1002183728009940), (56, 2481833774, 1567108175940660)]

/-- `vsop87d_dict.py` 10802-10893. -/
def earthR1_2 : List (ℕ × ℕ × ℕ) := [
  (55, 314274403422, 3301902111220460), (45, 300877289177, 898281066930900),
  (46, 73303568429, 630343116939020), (49, 160455690285, 630385124548380),
  (45, 40210030323, 680565326808520), (53, 94869680175, 1098880815753500),
  (41, 161122384329, 681988036208680), (55, 89439119424, 1193336796066960),
  (45, 388495384656, 6053048898574180), (40, 475740908001, 3852657435087200),
  (40, 149921251887, 1845107854656599), (40, 377498297228, 2608790314157420),
  (51, 170258603562, 155104522264800), (39, 297100699926, 211876386037840),
  (53, 519854123078, 7771377146812050), (47, 426356628717, 2142446664430340),
  (37, 62902722802, 2435678078864160), (36, 11087914947, 1034429506538580),
  (36, 77037556319, 1202934718788740), (35, 330933994515, 2407292146977640),
  (35, 593650887012, 3157079964939120), (36, 215108874765, 3077450164257480),
  (36, 175078825382, 1620788627150200), (33, 506264177921, 22685823855437008),
  (34, 616891378800, 2449142579258340), (35, 319120695549, 3221720018108080),
  (34, 231528650443, 5579845835839840), (32, 421446357042, 1566403552270859),
  (39, 124979117796, 641814093002680), (37, 411943655770, 278704302385740),
  (32, 162887710890, 63989728631400), (38, 589832942685, 64087760738220),
  (32, 172442327688, 2743388921587499), (31, 278828943753, 1213955350910680),
  (35, 444608896525, 1820221671665939), (34, 396287980676, 1821644381066100),
  (33, 473611335874, 1672335014259500), (34, 143910280005, 4951538250840700),
  (31, 23302920161, 2358125817731760), (29, 202633840220, 1160986254401220),
  (30, 254923230240, 992481042151060), (32, 491793198558, 1130058422135640),
  (28, 26187189577, 1352175144159140), (28, 384568936822, 269973481931760),
  (29, 183149729794, 2982278323632420), (33, 460320094415, 1900464794940840),
  (27, 446183450287, 670256049386660), (30, 446494072240, 3614740987730040),
  (27, 3211931363, 627978949257360), (26, 546497324333, 624504817735560),
  (35, 452695674113, 3694923080842420), (27, 352528177609, 1077089325626180),
  (26, 148499438453, 1108017157891760), (35, 282154380962, 1940279695281660),
  (25, 246339998836, 627948542133960), (26, 497688894643, 1673757723659660),
  (26, 236136541526, 1799603116822220), (29, 415148654061, 4589273043315699),
  (26, 450714272714, 1779695916678580), (27, 472625223674, 106649547719000),
  (25, 289309528854, 628666627864320), (27, 37462444357, 1296430070339100),
  (29, 494860010533, 586359120611620), (31, 393096113577, 2986433402730900),
  (24, 614987193584, 1860649894600020), (24, 374225964547, 2902648522950779),
  (25, 570460621565, 2770754249429480), (25, 533928840652, 1514139079431200),
  (27, 302320897140, 628636220740920), (23, 28364955406, 532747610838280),
  (26, 134240461687, 1887552586977400), (24, 133998410121, 1980094595622480),
  (25, 600172494004, 648926139842860), (22, 181777974484, 628859877429880),
  (22, 358603606640, 691585958930460), (29, 209564449439, 1526588651930040),
  (22, 102173599251, 1192527409260060), (22, 474660932338, 2823018722269139),
  (21, 230688751432, 599921653112620), (21, 322654944430, 2593412433108940),
  (21, 304956726238, 656693516885660), (27, 535653084499, 3379454372352860),
  (28, 391168324815, 1820834994259200), (20, 152296293311, 13506508003540),
  (22, 466462839521, 1336244970679920), (19, 178121167862, 15613747598479928),
  (19, 299969102221, 1965104848109800), (19, 286664273362, 1842262935909819),
  (25, 94995632141, 3141537924995700), (19, 471432851499, 7769075950573849),
  (19, 254227398241, 7773678343050249), (20, 591915117116, 4873985989708300)]

/-- `vsop87d_dict.py` 10601-10894. -/
def earthR1 : List (ℕ × ℕ × ℕ) := List.flatten [
  earthR1_0, earthR1_1, earthR1_2]

/-- `vsop87d_dict.py` 10896-10995. -/
def earthR2_0 : List (ℕ × ℕ × ℕ) := [
  (4359385, 578455133738, 628307584999140), (123633, 557934722157, 1256615169998280),
  (12341, 314159265359, 0), (8792, 362777733395, 7771377146812050),
  (5689, 186958905084, 557314280143310), (3301, 547027913302, 1884922754997420),
  (1471, 448028885617, 550755323866740), (1013, 281456417694, 522369391980220),
  (854, 310878241236, 157734354244780), (1102, 284173992403, 16100068573767410),
  (648, 547349498544, 77552261132400), (609, 137969434104, 643849624942560),
  (499, 441649242250, 628659896834040), (417, 90242451175, 1097707880469900),
  (402, 320376585290, 508862883976680), (351, 181079227770, 548677784317500),
  (467, 365753702738, 708489678111520), (458, 538585314743, 14985440013480789),
  (304, 351701098693, 79629800681640), (266, 617413982699, 683664525283380),
  (279, 184120501086, 469400295470760), (260, 141629543251, 214616541647520),
  (266, 313832905677, 7143069561812909), (321, 535313367048, 315468708489560),
  (238, 217720020018, 15542039943420), (293, 461501268144, 469047983635860),
  (229, 475969588070, 723479425624200), (211, 21868065485, 470573230754360),
  (201, 421905743357, 134986740965880), (195, 457808285364, 52969096509460),
  (253, 281496293039, 174801641306700), (182, 570454011389, 604034724601740),
  (179, 602897097053, 429233083295040), (186, 158690991244, 630937416979120),
  (170, 290220009715, 943776293488700), (166, 199984925026, 803109226305840),
  (158, 4783713552, 254431441988340), (197, 201083639502, 119444701022460),
  (165, 578372596778, 8399684731811189), (214, 338285934319, 763294325965020),
  (140, 36401486094, 1044738783960440), (151, 95153163031, 612765545055720),
  (136, 148426306582, 235286615377180), (127, 548475435134, 95171840625060),
  (126, 526866506592, 627955273164240), (125, 375754889288, 681276681508600),
  (101, 495015746147, 39814900340820), (102, 68468295277, 159259601363280),
  (100, 114568935785, 389418182954220), (129, 76540016965, 55356940284240),
  (109, 541063597567, 625677753019160), (75, 584804322893, 24272860397400),
  (95, 194452244083, 1185621865142450), (77, 69373708195, 842924126646660),
  (100, 519725292131, 24428760000722769), (80, 618440483705, 105938193018920),
  (69, 525699888595, 1414349524243060), (85, 539484725499, 2513230339996560),
  (66, 51779993906, 80182093112380), (55, 516878202461, 705859846131540),
  (51, 388759155247, 1203646073488820), (50, 557636570536, 629018939699220),
  (61, 224359003264, 863594200376320), (50, 554441900966, 199074501704100),
  (56, 400301078040, 1336797263110660), (52, 413138898038, 786041939243920),
  (52, 390943054011, 2629831979980), (41, 357128482780, 707937385680780),
  (56, 276959005761, 9095555169449610), (42, 191461189199, 747752286021600),
  (42, 42728171713, 1021328554621100), (42, 109413724455, 70993304855830),
  (39, 393298068961, 1097355568635000), (38, 617935925345, 991769687450980),
  (49, 83021145241, 1150676976979360), (53, 145828359397, 23314131440436149),
  (47, 621568666789, 668122485339960), (37, 36359309980, 1017725767953360),
  (35, 333024911524, 564317856367740), (34, 563446915337, 652580445396540),
  (35, 536033855038, 2515860171976540), (34, 536319798321, 493320844033260),
  (33, 424722336872, 1256967481833180), (43, 526370903404, 1057540668294180),
  (42, 508837645072, 1101510647733480), (40, 198334703186, 628405617105960),
  (42, 422496037505, 8886005707098669), (29, 319088628170, 1192625441366880),
  (29, 15217616684, 1216800269657460), (30, 161904744136, 977910867612540),
  (27, 76388991416, 158907289528380), (36, 274712003443, 373876143010800),
  (33, 308807829566, 393020969621960), (31, 534906619513, 14357132428481648),
  (25, 10240267494, 2248384857449259), (30, 347110495524, 1494531617355440),
  (24, 110425016019, 453505943692440), (24, 158037259780, 649637494542940),
  (23, 387710321433, 627596230299060), (25, 394529778970, 312838876509580)]

/-- `vsop87d_dict.py` 10996-11034. -/
def earthR2_1 : List (ℕ × ℕ × ℕ) := [
  (23, 344685609601, 413691043351620), (23, 383156029849, 575338488489680),
  (22, 186956128067, 1673046368959580), (25, 242188933855, 572950644714900),
  (20, 178208352927, 1778984561978500), (21, 430363087400, 1685848253293320),
  (21, 49258939822, 2908881141598500), (25, 133030250444, 628209552892320),
  (27, 254785812264, 349603282613400), (22, 111232521950, 1272157209941700),
  (21, 597759081637, 711354700080), (19, 80292033311, 1606218452611680),
  (23, 412454848769, 238889402044920), (22, 492663152168, 1887552586977400),
  (23, 568902059771, 1646033352952499), (23, 497346265647, 1726015465469040),
  (23, 303021283729, 6656748586525429), (16, 389740925257, 533135744374080),
  (17, 308268671348, 15471760988768269), (16, 395085099736, 309788382272579),
  (16, 399041783945, 628314316029419), (20, 610644140189, 16728376158766549),
  (15, 409775914607, 1171295531823080), (16, 571769940700, 1729818232732620),
  (16, 328894009404, 588492684658320), (15, 564785377164, 1255903815298200),
  (16, 443452080930, 628300853968860), (14, 231721603062, 548125491886760),
  (14, 443479032305, 1351787010623340), (14, 473209312936, 734245778018060),
  (12, 64705975463, 1807370493865020), (11, 151443332200, 1620077272450120),
  (11, 88708889185, 2122839202354580), (14, 450116508534, 64087760738220),
  (11, 464339996198, 1179062908865880), (11, 131064298246, 416431198961300),
  (9, 302238989305, 2354323050468179), (9, 204999402381, 2200391463486980),
  (9, 491488110218, 21329909543800)]

/-- `vsop87d_dict.py` 10895-11035. -/
def earthR2 : List (ℕ × ℕ × ℕ) := List.flatten [
  earthR2_0, earthR2_1]

/-- `vsop87d_dict.py` 11037-11063. -/
def earthR3_0 : List (ℕ × ℕ × ℕ) := [
  (144595, 427319435148, 628307584999140), (6729, 391697608662, 1256615169998280),
  (774, 0, 0), (247, 373019298781, 1884922754997420),
  (36, 280081409050, 628659896834040), (33, 562216602775, 612765545055720),
  (19, 371292621802, 643849624942560), (16, 426011484232, 652580445396540),
  (16, 350416887054, 625677753019160), (14, 362127621114, 2513230339996560),
  (11, 439200958819, 470573230754360), (11, 522327127059, 604034724601740),
  (10, 428045254647, 8399684731811189), (9, 156864096494, 550755323866740),
  (11, 137795688024, 630937416979120), (10, 519937959068, 7143069561812909),
  (9, 47275199930, 627955273164240), (9, 74642756529, 572950644714900),
  (7, 297374891560, 77552261132400), (7, 328615691021, 705859846131540),
  (7, 219184402142, 681276681508600), (5, 315419034438, 52969096509460),
  (6, 454725567047, 105938193018920), (5, 151104406936, 707937385680780),
  (7, 298052059053, 668122485339960), (5, 230961231391, 1203646073488820),
  (5, 371102966917, 629018939699220)]

/-- `vsop87d_dict.py` 11036-11064. -/
def earthR3 : List (ℕ × ℕ × ℕ) := earthR3_0

/-- `vsop87d_dict.py` 11066-11075. -/
def earthR4_0 : List (ℕ × ℕ × ℕ) := [
  (3858, 256384387339, 628307584999140), (306, 226769501230, 1256615169998280),
  (53, 344031471924, 557314280143310), (15, 204794573436, 1884922754997420),
  (13, 205688873673, 7771377146812050), (7, 441218854480, 16100068573767410),
  (5, 526154653107, 643849624942560), (5, 407695126049, 612765545055720),
  (6, 381514213664, 14985440013480789), (3, 128175749811, 628659896834040)]

/-- `vsop87d_dict.py` 11065-11076. -/
def earthR4 : List (ℕ × ℕ × ℕ) := earthR4_0

/-- `vsop87d_dict.py` 11078-11080. -/
def earthR5_0 : List (ℕ × ℕ × ℕ) := [
  (86, 121579741687, 628307584999140), (12, 65617264033, 1256615169998280),
  (1, 38068797142, 1884922754997420)]

/-- `vsop87d_dict.py` 11077-11081. -/
def earthR5 : List (ℕ × ℕ × ℕ) := earthR5_0

/-- `vsop87d_dict.py` 10072-11082 `_planets[("Earth", "R")]`. -/
def earthR : List (List (ℕ × ℕ × ℕ)) :=
  [earthR0, earthR1, earthR2, earthR3, earthR4, earthR5]

end Verif.Data

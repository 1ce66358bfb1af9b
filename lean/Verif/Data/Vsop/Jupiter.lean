import Mathlib.Data.Nat.Notation

/-! Generated by tools/gen_vsop.py from vsop87d_dict.py; do not edit.
Each row is amplitude, phase and frequency in units of 1e-11. -/

namespace Verif.Data

/-- `vsop87d_dict.py` 16610-16709. -/
def jupiterL0_0 : List (ℕ × ℕ × ℕ) := [
  (59954691495, 0, 0), (9695898711, 506191793105, 52969096509460),
  (573610145, 144406205976, 711354700080), (306389180, 541734729976, 105938193018920),
  (97178280, 414264708819, 63278373931320), (72903096, 364042909255, 52257741809380),
  (64263986, 341145185203, 10309277421860), (39806051, 229376744855, 41948464387520),
  (38857780, 127231724860, 31639186965660), (27964622, 178454589485, 53680451209540),
  (13589738, 577481031590, 158907289528380), (8246362, 358227961655, 20618554843720),
  (8768686, 363000324417, 94917560896980), (7368057, 508101125612, 73587651353180),
  (6263171, 2497643742, 21329909543800), (6114050, 451319531666, 116247470440780),
  (4905419, 132084631684, 11020632121940), (5305283, 130671236848, 1422709400160),
  (5305457, 418625053495, 105226838318840), (4647249, 469958109497, 393215326310),
  (3045009, 431675960318, 42659819087600), (2610001, 156667594850, 84608283475120),
  (2028191, 106376547379, 318139373770), (1764768, 214148077766, 106649547719000),
  (1722983, 388036008872, 126556747862640), (1920959, 97168928755, 63989728631400),
  (1633217, 358201089758, 51546387109300), (1431997, 429683690269, 62567019231240),
  (973278, 409764957065, 9597922721780), (884439, 243701426123, 41237109687440),
  (732875, 608534113239, 83896928775040), (731072, 380591233956, 158195934828300),
  (691928, 613368222939, 211876386037840), (709190, 129272573658, 74299006053260),
  (614464, 410853496756, 147886657406440), (495224, 375567461379, 32350541665740),
  (581902, 453967717552, 30927832265580), (375657, 470299124833, 136866025284500),
  (389864, 489716105852, 169216566950240), (341006, 571452525783, 53362311835770),
  (330458, 474049819491, 4818410980), (440854, 295818460943, 45490936652730),
  (417266, 103554430161, 244768055480), (244170, 522020878900, 72876296653100),
  (261540, 187652461032, 96320784650), (256568, 372410724159, 19907200143640),
  (261009, 82047246448, 38012776796000), (220382, 165115015995, 54391805909620),
  (201996, 180684574186, 137577379984580), (207327, 185461666594, 52575881183150),
  (197046, 529252149016, 115536115740700), (235141, 122693908124, 90981873305460),
  (174809, 590973505276, 95628915597060), (149368, 437745104275, 168505212250160),
  (175184, 322634903433, 189835121793960), (175191, 372966554761, 94206206196900),
  (157909, 436483921766, 179525844372100), (137871, 131797920785, 116958825140860),
  (117495, 250022140890, 159618644228460), (150502, 390625022622, 7478159856730),
  (116757, 338920921041, 52126486180), (105895, 455439798236, 52650957135690),
  (130531, 416867945489, 104515483618760), (141445, 313568357861, 49155792945680),
  (99511, 142117395747, 53287235883230), (96137, 118156870005, 11731986822020),
  (91758, 85756633461, 127268102562720), (87695, 121738140813, 45342489381900),
  (68507, 235242959478, 292076130680), (66098, 534386149468, 147175302706360),
  (77401, 442676337124, 3935687591520), (72006, 423834923691, 211165031337760),
  (63406, 497665525033, 75075952540), (59427, 411130498612, 200144399215820),
  (62481, 51211384012, 22041264243880), (66532, 298864358135, 221474308759620),
  (60194, 412628179571, 419278569400), (56012, 115493222602, 2134064100240),
  (52854, 91207215543, 1029494073850), (70297, 514180555282, 83503713448730),
  (51916, 410048180020, 125845393162560), (46442, 466531163524, 562907429250),
  (58190, 586646380344, 575338488489680), (40103, 468801114087, 16005869440),
  (46654, 479394835282, 30534616939270), (39298, 425448423697, 85319638175200),
  (46042, 510983515150, 466586644600), (54459, 157072704127, 98311585891360),
  (38920, 607592905580, 51864526483070), (38450, 243836870888, 43371173787680),
  (46800, 354640538283, 541662597140), (41830, 467982493646, 30216477565500),
  (35920, 245088036239, 43053034413910), (37888, 21127448431, 264845482547300),
  (39190, 171835571629, 1104570026390), (37567, 619481310233, 83185574074960),
  (35828, 461459907698, 200855753915900), (43402, 14992289081, 52820649238630),
  (31598, 514073450755, 178814489672020), (29849, 534441117167, 222185663459700)]

/-- `vsop87d_dict.py` 16710-16809. -/
def jupiterL0_1 : List (ℕ × ℕ × ℕ) := [
  (32811, 528907118836, 8886568021700), (27686, 185227036207, 21244832110),
  (25820, 385920882494, 231783586181480), (24705, 263495214991, 11413847448250),
  (33844, 100563073268, 968359458111640), (24266, 382355417268, 157484580128220),
  (27111, 280845435102, 1815924726470), (26837, 177586123775, 53213864564940),
  (26064, 274361318804, 253113495725280), (30765, 42330537728, 148447270830),
  (30476, 366677894407, 50835032409220), (23282, 324372142416, 98460033162190),
  (19445, 52370214471, 1497785352700), (19332, 486314494382, 136154670584420),
  (22910, 384914895064, 242804218303420), (21617, 601696940024, 106331408345230),
  (20155, 559582008789, 52724328453980), (23732, 252766031921, 49426624244250),
  (20189, 101560227681, 62885158605010), (15994, 509003530653, 52973914920440),
  (16134, 527095037302, 14244965013380), (20697, 403443281612, 35574874557180),
  (21479, 128668134295, 3542472265210), (14964, 486039684390, 210453676637680),
  (17242, 159187913206, 143950969814920), (15994, 189222417794, 52964278098480),
  (17958, 430178016003, 615033915430), (13279, 218943981644, 105544977692610),
  (14148, 271597731671, 26063243090), (14689, 87944553412, 9916062095550),
  (14202, 241335693735, 53065417294110), (15320, 607703092728, 14956319713460),
  (15832, 411682440678, 63671589257630), (12398, 261042299578, 40525754987360),
  (16199, 277035044582, 76025553592000), (13665, 356039678310, 21723124870110),
  (15261, 281824770887, 62173803904930), (14681, 626423732742, 56904784100980),
  (12529, 139077179081, 706536289100), (11677, 360447374272, 263422773147140),
  (11603, 460461756191, 716173111060), (12152, 24540531919, 148598012106520),
  (11347, 200818458261, 107360902419080), (11242, 248000947870, 42341679713830),
  (10942, 503602448252, 45884151979040), (11117, 404973271023, 51939602435610),
  (12256, 430153222783, 60447256366190), (13149, 272189077702, 136472809958190),
  (10604, 311518747072, 127202438720), (9874, 170200068743, 169927921650320),
  (10851, 508554552028, 232494940881560), (10692, 251401681528, 284752682690940),
  (12640, 475572797691, 52872775724810), (10084, 405599810206, 3813303563780),
  (11536, 235034215745, 64382943957710), (10247, 363479911496, 274443405269080),
  (10105, 365845333837, 10702492748170), (10121, 131482648275, 190546476494040),
  (9341, 592176693887, 114824761040620), (8796, 277421822809, 659228213900),
  (8420, 452537756809, 167793857550080), (10128, 209034472544, 51153171782990),
  (8272, 298682673354, 54073666535850), (9753, 122438911827, 3224332891440),
  (10630, 207777800288, 9204707395470), (7850, 98996894618, 40843894361130),
  (8811, 346911754939, 102124889455140), (7946, 286682926070, 212587740737920),
  (8575, 529590411702, 41555249061210), (7841, 608025056721, 7084944530420),
  (7706, 169832954219, 807675484730), (7265, 465503563919, 62960234557550),
  (7164, 493400217968, 105620053645150), (7247, 461607677560, 242092863603340),
  (7753, 212871653382, 3394024994380), (6645, 45647460873, 63596513305090),
  (9377, 403158388202, 281092146160520), (8263, 123558676139, 180237199072180),
  (6341, 7278001580, 20225339517410), (6383, 354310669809, 189123767093880),
  (7902, 232510002614, 23056457082540), (6214, 454560345237, 270831298570),
  (7347, 124457237337, 2437902238820), (7451, 302719199239, 33061896365820),
  (6220, 177687561489, 106256332392690), (5674, 514132196367, 74692221379570),
  (5855, 542130172896, 2831117565130), (5629, 324348217277, 52916970023280),
  (7652, 52813391052, 67214061522840), (5456, 334716871364, 295061960112800),
  (7127, 143497795005, 621977512350), (5388, 490175095580, 6915252427480),
  (5618, 497903783721, 264134127847220), (5844, 295364118152, 49033408917940),
  (4943, 537597740579, 72164941953020), (5062, 484282906467, 3101948863700),
  (5163, 507410777073, 6766805156650), (4739, 610248862834, 10627416795630),
  (4879, 7095292379, 7871375183040), (4854, 563875661096, 169692102940)]

/-- `vsop87d_dict.py` 16810-16909. -/
def jupiterL0_2 : List (ℕ × ℕ × ℕ) := [
  (5629, 373871604865, 53021222995640), (4471, 449152882547, 50531194270640),
  (4313, 479369370451, 53510759106600), (4280, 54783823710, 143628859850),
  (4453, 50551854591, 52406189080210), (4936, 482992988255, 42266603761290),
  (4701, 341634869046, 306082592234740), (4261, 267044686458, 56193429400900),
  (4156, 400660658688, 9991138048090), (4561, 229650164054, 316391869656600),
  (4414, 567224020329, 146463948006280), (5345, 31513851830, 128994650101460),
  (5269, 389116469022, 19195845443560), (3855, 428942301453, 199433044515740),
  (4210, 532763589447, 253824850425360), (3949, 456507101172, 138288734684660),
  (3885, 156778786810, 64701083331480), (4227, 551697599030, 522369391980220),
  (4129, 281119457666, 41630325013750), (3663, 435187510477, 273732050569000),
  (3566, 548243943375, 75010360753340), (4330, 84941756640, 53117543780290),
  (4093, 19980340452, 52502509864860), (4022, 192293311337, 151280682400820),
  (3400, 600302355875, 122384027740), (3496, 31252921473, 59735901666110),
  (3299, 427596694481, 52677020378780), (3226, 290455264496, 96340270297140),
  (3150, 381061764181, 28096714700450), (4129, 474946631331, 89377187730),
  (3840, 191064405186, 37864329525170), (3057, 165589659685, 52894020556920),
  (3011, 159276337369, 22434479570190), (3196, 586588452873, 414460158420),
  (3628, 7930225897, 55800214074590), (2932, 41424445089, 786430652620),
  (3316, 270211697795, 53261172640140), (2925, 447580363425, 53388375078860),
  (3690, 39897023849, 68547393735270), (3223, 245833032883, 96022130923370),
  (3059, 532616140812, 53044172462000), (3383, 442170370028, 31245971639350),
  (3320, 271417812514, 49575071515080), (2697, 523146633437, 73980866679490),
  (3590, 230999595873, 90833426034630), (3677, 507337955976, 7329712585900),
  (2618, 309118499149, 326701147078460), (2796, 298942316119, 48322054217860),
  (3398, 329598270278, 91130320576290), (3352, 144391979336, 59342686339800),
  (2563, 335080110279, 220762954059540), (2553, 36892288645, 104833622992530),
  (2620, 382769874340, 52012973753900), (3356, 108315053878, 4647042291600),
  (3035, 552230028113, 61855664531160), (3397, 383084746522, 21011770170030),
  (2497, 47917884538, 94524345570670), (2341, 587941292649, 275154759969160),
  (2656, 49713061045, 105789745748090), (2581, 3759881914, 164453140270),
  (2900, 250019054587, 52549817940060), (3153, 230900986177, 45761767951300),
  (2201, 394367109739, 3149256938900), (2381, 619252134885, 32743756992050),
  (2458, 65614291954, 915390361602180), (2111, 561905648764, 1646232623530),
  (2130, 375880734109, 72483081326790), (2406, 229315649755, 19513984817330),
  (2166, 543262641046, 53435683154060), (2057, 149875151278, 55103160609700),
  (2676, 506374981112, 45639383923560), (2078, 528920097886, 7626607127560),
  (2261, 538117230692, 178103134971940), (2356, 67392574097, 22752618943960),
  (2240, 318006978517, 337721779200400), (2183, 308384250950, 52427433912320),
  (2119, 270107659927, 38724131496080), (2056, 482779196994, 295773314812880),
  (2116, 620263841494, 20936694217490), (2712, 318157754631, 147467378837040),
  (2127, 124424012514, 53998590583310), (2424, 357595925853, 95310776223290),
  (1947, 194468082546, 52953090640020), (1896, 401406242800, 231072231481400),
  (1935, 410051493950, 305371237534660), (2056, 627074148550, 24554242435240),
  (2108, 322886474225, 25265597135320), (2596, 277467278614, 17787437278590),
  (1919, 314834694111, 38161224066830), (2217, 192368906925, 53591074021810),
  (1947, 503751780002, 52985102378900), (2025, 482814272957, 1726547538740),
  (1945, 210611582568, 348031056622260), (1899, 5104263891, 56071045373160),
  (2221, 58365090630, 317814579056760), (2271, 167360565619, 73194436026870),
  (1706, 540277333462, 2044686912510), (2295, 420863103004, 103804128918680),
  (2218, 365982280555, 28245161971280), (2181, 487369503022, 53532003938710)]

/-- `vsop87d_dict.py` 16910-17009. -/
def jupiterL0_3 : List (ℕ × ℕ × ℕ) := [
  (1745, 134021867874, 2512978191360), (1601, 392730015840, 1752610781830),
  (1651, 63598292839, 1740848773930), (1826, 31592311031, 12443341522100),
  (2041, 15617294873, 59884348936940), (1494, 381418025130, 31957326339430),
  (1551, 525201528605, 43764389113990), (1852, 236130812462, 3787240320690),
  (1466, 172926380881, 5980374504030), (1417, 582273267086, 8175213321620),
  (1430, 117528806260, 44082528487760), (1906, 406896022692, 181963746610920),
  (1397, 26383366743, 5040257617910), (1756, 232977483716, 93812990870590),
  (1487, 224866746540, 1003430830760), (1368, 356691602771, 151429129671650),
  (1400, 484502200703, 29505122865420), (1344, 220177702122, 52990341341570),
  (1464, 142648716568, 115854255114470), (1341, 115693423225, 243515573003500),
  (1786, 544716330146, 285464037391020), (1677, 622875777048, 83355266177900),
  (1471, 480574535807, 69651963761660), (1436, 145810957330, 53776771994190),
  (1657, 2890651793, 13851749687070), (1300, 314074420421, 54785021235930),
  (1343, 614827138025, 98853248488500), (1344, 478042160426, 52947851677350),
  (1234, 283294330979, 358340334044120), (1651, 212056447005, 106182961074400),
  (1479, 24646493075, 159300504854690), (1413, 307444632745, 628307584999140),
  (1246, 594882321661, 105693424963440), (1225, 195642397635, 196920066324380),
  (1388, 287749576073, 102395720753710), (1263, 346181945031, 4084134862350),
  (1325, 415429781246, 91693228005540), (1477, 526691818477, 81065811209910),
  (1165, 465528125418, 94498282327580), (1137, 248561382158, 200573757010),
  (1118, 380747957482, 700167241620), (1138, 511611532241, 88543971066640),
  (1131, 154599459004, 77523338944700), (1477, 469742954455, 63033605875840),
  (1252, 134316620527, 73905790726950), (1273, 519070939905, 209742321937600),
  (1446, 554999644374, 4328902917830), (1344, 475897665313, 116640685767090),
  (1101, 456997613488, 327412501778540), (1376, 360998729004, 41529185818120),
  (1437, 622410093972, 15578297225810), (1167, 409497264272, 20300415469950),
  (1237, 441132627005, 29201284726840), (1077, 257045229823, 2527279426550),
  (1341, 49262296655, 63523141986800), (1209, 336289125536, 52161421024730),
  (1030, 181822316284, 46595506679120), (1002, 321720955284, 252402141025200),
  (1338, 126054917773, 90270518605380), (1037, 387858871885, 337010424500320),
  (1224, 9219976028, 82474219374880), (1255, 304675952762, 44779581952650),
  (991, 416587903812, 63283192342300), (975, 380216680539, 262711418447060),
  (1061, 560184374277, 73269511979410), (1049, 294931080683, 369360966166060),
  (984, 98260254313, 63273555520340), (1050, 220935815967, 722542158540),
  (996, 541921062583, 105943011429900), (961, 87315283361, 54466881862160),
  (1175, 309093466406, 189441906467650), (1049, 581616384906, 2682670294300),
  (1161, 1274801567, 85001498801430), (1109, 363294273717, 30683064210100),
  (1077, 95716576092, 60840471692500), (1288, 423019288942, 121516490244730),
  (1060, 385856787901, 63182053146670), (1251, 615889818604, 46202291352810),
  (1165, 350653563773, 859801970910), (933, 462559759882, 104908698945070),
  (1035, 130805283339, 63374694715970), (1238, 221195391602, 2555821217647960),
  (1240, 227960685992, 690109867970), (942, 414526324371, 94599421523210),
  (927, 610893117637, 51471311156760), (914, 617656044376, 95235700270750),
  (893, 427448748055, 63313944640), (1045, 164682770236, 56511568774670),
  (903, 194250156640, 379670243587920), (1162, 551229668479, 296894541660),
  (901, 303568112112, 46053844081980), (903, 224012822393, 52354062594030),
  (1060, 528027224466, 317103224356680), (1064, 99330150801, 32032402291970),
  (970, 456607888439, 42904587143080), (1071, 433203090957, 61069233878540),
  (865, 21831429230, 109873880610440), (865, 282123742108, 106034513803570),
  (882, 480076824948, 38405992122310), (959, 545468005818, 45194042111070)]

/-- `vsop87d_dict.py` 17010-17109. -/
def jupiterL0_4 : List (ℕ × ℕ × ℕ) := [
  (1042, 579270325150, 30386169668440), (784, 185150700827, 31321047591890),
  (1083, 140526460812, 7207328558160), (782, 303559242565, 584152261360),
  (854, 122236205478, 61144309831080), (996, 222139794743, 105933374607940),
  (719, 492550252164, 42193232443000), (953, 398347050083, 83652160719560),
  (822, 449679856387, 1021328554621100), (707, 216473400319, 222897018159780),
  (715, 462515255534, 38554439393140), (737, 463776694324, 113416352875650),
  (730, 187179326186, 15349535039770), (709, 293132115910, 41703696332040),
  (926, 177006317007, 233206295581640), (864, 303246275970, 104122268292450),
  (708, 601601101389, 39510562148700), (935, 601864676296, 17394221952280),
  (695, 139408383356, 43201481684740), (687, 306548397586, 52995159752550),
  (677, 358357527210, 24431858407500), (850, 546114025921, 4105379694460),
  (817, 465315342412, 53584130424890), (652, 44173759183, 120183158032300),
  (711, 96283289310, 37301422095920), (665, 103244633471, 62322251175760),
  (643, 505335060049, 52262560220360), (639, 422718483639, 2586349509650),
  (718, 507576900710, 105841872234270), (664, 243728454444, 158514074202070),
  (833, 149468440213, 56363121503840), (760, 434849823663, 10064509366380),
  (633, 431796718640, 359051688744200), (629, 623431126402, 67925416222920),
  (617, 268075016456, 389979521009780), (646, 288581188015, 1349338081870),
  (768, 318498076120, 115142900414390), (731, 586653168561, 50137978944330),
  (652, 82865771780, 201567108615980), (796, 536663489938, 42096911658350),
  (647, 474965662438, 56782400073240), (845, 169406147722, 174485586754190),
  (802, 579824707751, 98163138620530), (764, 505232933368, 82792358748650),
  (604, 511265182908, 115929331067010), (682, 368248136835, 228123049651060),
  (740, 74512356954, 126163532536330), (666, 206624389616, 2708733537390),
  (652, 492932795958, 241381508903260), (559, 17558868481, 6373589830340),
  (577, 382752312276, 155093985964600), (727, 105835550856, 49007345674850),
  (574, 361492119092, 368649611465980), (732, 593179840659, 4253826965290),
  (606, 271411884300, 117352040467170), (633, 421720828607, 16682867252200),
  (687, 391671464962, 52943033266370), (570, 273551750122, 401000153131720),
  (552, 236967119362, 160329998928540), (600, 182659364395, 52252923398400),
  (558, 509099246601, 135443315884340), (519, 611952999304, 36679444583570),
  (719, 85722557905, 36286229257260), (518, 203954064144, 41852143602870),
  (515, 351750445111, 52841894070740), (515, 347930063838, 10314095832840),
  (550, 577676837730, 42044785172170), (702, 367952126446, 127979457262800),
  (550, 61451088395, 10405598206510), (495, 241738205536, 17935884549420),
  (513, 29823688044, 10304459010880), (537, 547946238724, 77130123618390),
  (507, 308777345288, 135761455258110), (495, 495362659160, 53685269620520),
  (681, 456294416261, 11265400177420), (500, 315631977489, 107042763045310),
  (484, 79038835602, 2845418800320), (529, 546978501034, 41943645976540),
  (597, 498058295172, 125134038462480), (492, 396066546484, 126949963188950),
  (482, 360167662490, 294350605412720), (630, 616496640092, 10554045477340),
  (480, 86786400621, 3521227433100), (516, 597528782923, 306793946934820),
  (586, 548467997697, 5662235130260), (502, 143671788959, 46988722005430),
  (473, 228007170041, 204249778910280), (565, 190952569252, 10728555991260),
  (452, 313938145287, 93494851496820), (605, 165413715574, 76174000862830),
  (443, 546282223686, 13533610313300), (580, 206327501551, 49304240216510),
  (540, 173777995970, 53675632798560), (432, 27167052107, 9353154666300),
  (515, 346469417437, 53096298948180), (440, 528884782489, 49744763618020),
  (487, 578767525063, 1203646073488820), (452, 257855172248, 125452177836250),
  (427, 321032629463, 284041327990860), (414, 154298025443, 11562294719080)]

/-- `vsop87d_dict.py` 17110-17209. -/
def jupiterL0_5 : List (ℕ × ℕ × ℕ) := [
  (424, 12699448931, 126874887236410), (411, 312424023238, 53628324723360),
  (452, 100194596383, 11338771495710), (419, 81834479225, 116565609814550),
  (490, 472785081986, 27703499374140), (434, 36146539146, 130492435454160),
  (401, 570326543719, 112704998175570), (461, 326462894820, 10212956637210),
  (533, 254951615753, 14122580985640), (413, 438801694479, 615153388830500),
  (415, 168861617902, 39117346822390), (385, 169092319074, 411309430553580),
  (450, 549339192735, 60298809095360), (499, 380738617353, 8100137369080),
  (454, 10952919733, 60054041039880), (377, 625375060718, 91375088631770),
  (453, 386104865567, 75877106321170), (401, 444475618337, 99022940591440),
  (407, 513442416563, 348742411322340), (435, 376103358490, 52309868295560),
  (425, 322287851959, 265556837247380), (365, 516456645463, 469400295470760),
  (454, 163325197950, 97600231191280), (406, 272102389267, 143802522544090),
  (349, 359598366422, 105886066532740), (354, 62136331420, 49867147645760),
  (383, 509229089574, 53925219265020), (380, 392653231573, 56118353448360),
  (339, 412175871949, 390690875709860), (458, 342556794767, 12125202148330),
  (427, 361285264910, 86030992875280), (424, 472757252331, 136621257229020),
  (328, 455286002816, 169609782276550), (324, 423685005210, 64234496686880),
  (395, 326282558955, 48444438245600), (330, 605223507989, 21574677599280),
  (318, 202072800070, 296484669512960), (417, 20173093597, 84290144101350),
  (408, 45800247268, 157802719501990), (342, 615347077985, 137184164658270),
  (310, 197259286255, 75403576079650), (340, 277813018312, 352311834900),
  (333, 291352254678, 57616138801060), (324, 32544817254, 58631331639720),
  (302, 208708848849, 52698265210890), (363, 470567113230, 273020695868920),
  (300, 94464473068, 143239615114840), (352, 575013621801, 80672595883600),
  (296, 397807312133, 204398226181110), (295, 235257797599, 421618707975440),
  (309, 249768755925, 432639340097380), (306, 335876843257, 242411002977110),
  (300, 494288858368, 137970595310890), (336, 449193455535, 158589150154610),
  (402, 204684001796, 84215068148810), (312, 459043534747, 18892007304980),
  (346, 519792097706, 52347118997110), (380, 167961600066, 3664856292950),
  (338, 132014513725, 14807872442630), (391, 482224015188, 101291150727320),
  (285, 343655052437, 105396530421780), (332, 202575636311, 109162525910360),
  (282, 578865321890, 106404779663520), (282, 39153852422, 20767002114550),
  (280, 380196391678, 29823262239190), (387, 626819309990, 114113406340540),
  (349, 409121908199, 105990319505100), (320, 39871942000, 212269601364150),
  (327, 476503823073, 13458534360760), (283, 390409016441, 12747179660680),
  (301, 430291951219, 29912639426920), (322, 248251052680, 106560170531270),
  (297, 240814103509, 159152057583860), (286, 585849626574, 17224529849340),
  (285, 455845472479, 144662324515000), (270, 408342186112, 157877795454530),
  (362, 106148806683, 18180652604900), (335, 451094500655, 234932843120380),
  (347, 62281394535, 154260247236780), (275, 338473403113, 400288798431640),
  (255, 152357936497, 168823351623930), (276, 432192160071, 191257831194120),
  (253, 240482338279, 9767614824720), (248, 445058246237, 168898427576470),
  (300, 307435583442, 190228337120270), (257, 479180478086, 167082502850000),
  (319, 134244222683, 128846202830630), (245, 401852686769, 156773225428140),
  (278, 25406312148, 87439401040250), (324, 557824969423, 167007426897460),
  (300, 467161812947, 132930337692980), (241, 1789818312, 158662521472900),
  (295, 586996114913, 280423779773110), (317, 317967272487, 102002505427400),
  (238, 497765946754, 35181659230870), (302, 120236375616, 23204904353370),
  (301, 553432687957, 227454683263650), (286, 241008592059, 254536205125440),
  (294, 201783542485, 31394418910180), (292, 212690999284, 159225428902150)]

/-- `vsop87d_dict.py` 17210-17309. -/
def jupiterL0_6 : List (ℕ × ℕ × ℕ) := [
  (250, 231712163679, 63226247445140), (238, 506557054569, 380381598288000),
  (226, 5916712753, 151822344997960), (235, 16574304942, 13703302416240),
  (298, 299720233431, 146782087380050), (286, 508357076653, 77400954916960),
  (246, 281685822336, 63330500417500), (269, 493023426152, 15104766984290),
  (228, 613118739321, 328123856478620), (228, 122066024988, 70045179087970),
  (239, 71695698501, 127661317889030), (289, 608263862565, 338433133900480),
  (218, 290308501961, 8582729883120), (283, 628058228271, 7181265315070),
  (271, 601605074549, 17076082578510), (221, 99914179141, 105375285589670),
  (218, 150681393471, 108769310584050), (223, 339126063354, 325989792378380),
  (229, 119373202707, 106086640289750), (264, 393467945263, 136324362687360),
  (228, 504188376116, 106479855616060), (295, 215253086390, 638616862421000),
  (214, 385961180377, 422330062675520), (218, 79681703388, 190939691820350),
  (212, 411706418218, 26992144674060), (264, 581676406517, 7796299230500),
  (256, 565978708108, 79961241183520), (242, 625078283449, 162131622419820),
  (235, 220668997852, 157091364801910), (212, 288214546012, 167400642223770),
  (206, 159586787037, 442948617519240), (208, 231366614282, 87832616366560),
  (213, 30373338388, 862421265092720), (223, 488419887133, 103500290780100),
  (279, 365173543621, 8493352695390), (210, 408825553401, 20373786788240),
  (214, 463498396475, 81214258480740), (258, 173501688450, 188730551767570),
  (210, 451798082710, 126238608488870), (252, 569246905091, 10457724692690),
  (205, 462946016431, 105646116888240), (263, 304951219565, 149309366806600),
  (222, 554424082649, 521658037280140), (244, 91026645686, 370783675566220),
  (204, 90117975859, 140801712876020), (225, 123997048012, 334061242669980),
  (258, 235906183505, 286175392091100), (267, 327705002283, 512060114558360),
  (214, 66988779149, 914679006902100), (235, 493761209111, 144344185141230),
  (194, 160798828275, 10257150935680), (215, 97603524747, 47928838891550),
  (205, 523642605904, 464989881763120), (257, 470227260707, 905081084180320),
  (228, 623410921116, 6495973858080), (180, 421309134581, 14393412284210),
  (180, 482870451226, 106357471588320), (180, 506126965624, 5269019803950),
  (226, 55334952097, 55406998748280), (209, 567975843693, 4875804477640),
  (186, 366368928017, 10872184851110), (190, 200852986549, 105863117066380),
  (183, 317358464220, 14096517742550), (198, 549816579454, 433350694797460),
  (240, 606602357868, 182112193881750), (172, 304802064781, 5433472944220),
  (170, 466520291204, 137259240610810), (173, 472884056307, 7720432749453338),
  (174, 85370421252, 158758842257550), (215, 68219980704, 105471606374320),
  (170, 152204803308, 559196087960020), (200, 160275092073, 668122485339960),
  (193, 213003479280, 10361403908040), (231, 469962389031, 196623171782720),
  (179, 557395905447, 145752593306200), (205, 365507571128, 90684978763800),
  (181, 452272934666, 2449883024629040), (223, 11650319998, 6788049988760),
  (172, 568083885227, 188412412393800), (219, 60964963735, 272945619916380),
  (164, 106675279755, 59465070367540), (176, 236848603898, 97748678462110),
  (170, 243036684800, 453257894941100), (191, 364255924842, 144099417085750),
  (207, 49276008455, 7160020482960), (157, 426888100582, 506938346150640),
  (157, 514847227422, 45172797278960), (158, 500063628575, 65094298657790),
  (159, 537530499642, 2042657109242200), (218, 27875408082, 17516605980020),
  (155, 83696849428, 147493442080130), (154, 262839957291, 68318631549230),
  (171, 179511736017, 112311782849260), (188, 524747110812, 2556532572348040),
  (168, 414907553818, 94672792841500), (203, 283699715530, 148991227432830),
  (173, 434546063838, 304659882834580), (190, 567865607835, 106013268971460),
  (201, 238524182920, 41953282798500), (152, 589088685790, 20863322899200)]

/-- `vsop87d_dict.py` 17310-17369. -/
def jupiterL0_7 : List (ℕ × ℕ × ℕ) := [
  (206, 446933127349, 265467460059650), (156, 237819796438, 275866114669240),
  (203, 70565514297, 49819839570560), (205, 305468636546, 106230269149600),
  (174, 350824761708, 200436475346500), (148, 473961194393, 179919059698410),
  (188, 362315953725, 315680514956520), (183, 235011338194, 2555109862947879),
  (162, 158053710589, 62859095361920), (162, 399983876824, 148279872732750),
  (181, 285489861839, 105518914449520), (151, 343198157222, 62986297800640),
  (157, 315195826490, 102544168024540), (194, 513049187783, 181815299340090),
  (193, 192287052164, 114038330388000), (137, 422335221970, 104982070263360),
  (167, 285163087563, 574627133789600), (167, 573970282991, 576049843189760),
  (138, 223519776527, 117670179840940), (151, 489507270899, 53239927808030),
  (147, 265931838448, 98730864460760), (135, 12836417770, 99171387862270),
  (166, 312682515439, 58009354127370), (118, 598810576300, 53138788612400),
  (135, 526601313643, 106501100448170), (138, 318511244397, 70756533788050),
  (122, 134377059565, 44631134681820), (120, 229717714347, 105922187149480),
  (121, 58145552537, 562184292321040), (103, 475645235023, 122621060271120),
  (104, 608481630139, 52825467649610), (119, 106475523307, 52799404406520),
  (104, 89730746841, 53112725369310), (120, 539001411803, 105954198888360),
  (104, 44849170648, 112853445446400), (117, 542449214711, 98608480433020),
  (101, 509893554462, 53058473697190), (102, 26948040239, 45097721326420),
  (107, 158724086516, 106967687092770), (86, 228711702506, 249889162833840),
  (101, 188318822518, 52879719321730), (86, 137568728263, 97051624997220),
  (83, 6930748288, 53091480537200), (85, 322094000094, 155364817263170),
  (83, 62963097974, 52846712481720), (83, 416314675511, 84926422848890),
  (79, 346688102340, 107754117745390), (97, 87886975916, 969070812811720),
  (97, 427398311206, 967648103411560), (101, 29639798579, 85712853501510),
  (83, 255427333923, 105959437851030), (78, 6461496210, 52182665856840),
  (78, 76677000862, 52554636351040), (96, 33631035749, 109040141882620),
  (98, 142815294497, 75721715453420), (77, 85066773729, 53755527162080),
  (84, 504765104413, 116002702385300), (76, 362264327413, 78234693644780),
  (85, 186831145784, 2502852121138500), (79, 290602202890, 211483170711530)]

/-- `vsop87d_dict.py` 16609-17370. -/
def jupiterL0 : List (ℕ × ℕ × ℕ) := List.flatten [
  jupiterL0_0, jupiterL0_1, jupiterL0_2, jupiterL0_3, jupiterL0_4, jupiterL0_5, jupiterL0_6, jupiterL0_7]

/-- `vsop87d_dict.py` 17372-17471. -/
def jupiterL1_0 : List (ℕ × ℕ × ℕ) := [
  (52993480757497, 0, 0), (489741194, 422066689928, 52969096509460),
  (228918538, 602647464016, 711354700080), (27655380, 457265956824, 105938193018920),
  (20720943, 545938936295, 52257741809380), (12105732, 16985765041, 53680451209540),
  (6068051, 442419502005, 10309277421860), (5433924, 398478382565, 41948464387520),
  (4237795, 589009351271, 1422709400160), (2211854, 526771446618, 20618554843720),
  (1295769, 555132765087, 318139373770), (1745919, 492669378486, 158907289528380),
  (1163411, 51450895328, 393215326310), (1007216, 46478398551, 73587651353180),
  (1173129, 585647304350, 105226838318840), (847678, 575805850450, 11020632121940),
  (827329, 480312015734, 21329909543800), (1003574, 315040301822, 42659819087600),
  (1098735, 530704981594, 51546387109300), (816397, 58643054886, 106649547719000),
  (725447, 551827471473, 63989728631400), (567845, 598867049451, 62567019231240),
  (474181, 413245269168, 41237109687440), (412930, 573652891261, 9597922721780),
  (335817, 373248749046, 116247470440780), (345249, 424159565410, 63278373931320),
  (234066, 624302226646, 30927832265580), (194784, 221879010911, 32350541665740),
  (234340, 403469970332, 94917560896980), (183938, 627963588822, 54391805909620),
  (198525, 150458442825, 83896928775040), (186899, 608620565908, 74299006053260),
  (171380, 541655983845, 19907200143640), (130771, 62643377351, 72876296653100),
  (107575, 449282760117, 95628915597060), (115393, 68019050174, 84608283475120),
  (115047, 528641699144, 211876386037840), (66824, 573365126533, 2134064100240),
  (69618, 597263450278, 53287235883230), (64850, 608803490288, 158195934828300),
  (79686, 582412400273, 104515483618760), (57939, 99453087342, 159618644228460),
  (65635, 12924191430, 52650957135690), (58509, 58626971028, 115536115740700),
  (56600, 141198438841, 53362311835770), (71643, 534162650321, 94206206196900),
  (57368, 596851304799, 116958825140860), (54935, 542806383723, 1029494073850),
  (52016, 22981299129, 136866025284500), (52309, 572661448388, 11731986822020),
  (50418, 608075147811, 52575881183150), (47418, 362611843241, 147886657406440),
  (39888, 416158013600, 169216566950240), (46678, 51144073175, 126556747862640),
  (32827, 503596689455, 22041264243880), (33558, 9913904872, 30216477565500),
  (29379, 335927241533, 466586644600), (29307, 75907909735, 8886568021700),
  (32449, 537492530697, 50835032409220), (29483, 542208897099, 127268102562720),
  (21802, 615054054070, 168505212250160), (25195, 160723063387, 83185574074960),
  (21133, 586346824200, 125845393162560), (19747, 217205957814, 31639186965660),
  (17871, 82841413516, 43371173787680), (17703, 595527049039, 541662597140),
  (17230, 276395560958, 85319638175200), (17453, 70749901224, 147175302706360),
  (17508, 49799925173, 137577379984580), (14368, 91459831140, 1815924726470),
  (14107, 63031082833, 292076130680), (11559, 430379009964, 40525754987360),
  (11728, 176426582357, 38012776796000), (11054, 556735602213, 157484580128220),
  (10425, 31355034390, 136154670584420), (9804, 590363777277, 51939602435610),
  (9805, 38648727979, 107360902419080), (9285, 321842287530, 179525844372100),
  (8864, 53776257958, 178814489672020), (8370, 588484552222, 200144399215820),
  (8148, 510162311410, 148598012106520), (7658, 564890060131, 264845482547300),
  (6690, 241093459420, 419278569400), (5840, 422347896053, 200855753915900),
  (7256, 619384525651, 1104570026390), (6266, 136137786945, 114824761040620),
  (5141, 523083932012, 62885158605010), (5140, 292955981951, 51864526483070),
  (4765, 16838181862, 62960234557550), (4603, 78529559911, 72164941953020),
  (4575, 624794935732, 167793857550080), (4537, 495096707833, 63596513305090),
  (4518, 206523915453, 45342489381900), (4414, 15381186059, 169927921650320),
  (5593, 557489981207, 19195845443560), (5403, 146004886198, 33061896365820),
  (4285, 23949868127, 210453676637680), (4223, 144087555881, 212587740737920),
  (4101, 619274358942, 63671589257630), (4432, 435811524051, 42341679713830)]

/-- `vsop87d_dict.py` 17472-17571. -/
def jupiterL1_1 : List (ℕ × ℕ × ℕ) := [
  (4132, 50170694173, 105620053645150), (4398, 414280286969, 51153171782990),
  (5406, 440429493698, 222185663459700), (4467, 8534650684, 106256332392690),
  (3569, 566540477010, 231783586181480), (4007, 254845549248, 7478159856730),
  (3515, 25495124831, 105544977692610), (3687, 293378008847, 3224332891440),
  (2883, 572793010505, 9991138048090), (2969, 550054720569, 10702492748170),
  (2720, 125222590925, 54073666535850), (2808, 330714813896, 75075952540),
  (2768, 161339487804, 106331408345230), (2666, 428662288102, 10627416795630),
  (2704, 303615556153, 42266603761290), (3290, 589081682150, 180237199072180),
  (2578, 360390367979, 75010360753340), (2661, 35249312659, 189835121793960),
  (2486, 528950877719, 189123767093880), (2936, 109052029450, 146463948006280),
  (3190, 460740643547, 41630325013750), (2390, 601779736611, 55103160609700),
  (2214, 524450923180, 62173803904930), (2319, 582920300130, 30534616939270),
  (2089, 599310370434, 199433044515740), (2042, 75008788531, 14244965013380),
  (2121, 1537599023, 242092863603340), (2114, 625308371567, 64701083331480),
  (2020, 417560390841, 56904784100980), (2109, 518682321403, 22752618943960),
  (2283, 580043809222, 53998590583310), (1977, 399197009651, 2437902238820),
  (1960, 135288793079, 96340270297140), (1903, 278349628184, 242804218303420),
  (1915, 422134509685, 232494940881560), (1971, 588715684267, 21723124870110),
  (1917, 303728154374, 138288734684660), (2026, 308606488714, 40843894361130),
  (1834, 561474110217, 43053034413910), (1838, 125467410218, 8175213321620),
  (2460, 463268678998, 190546476494040), (1820, 597497926120, 11413847448250),
  (2043, 434047514845, 7084944530420), (1959, 403116026306, 9204707395470),
  (1768, 33097462499, 3542472265210), (2334, 587042638470, 103804128918680),
  (1835, 481326127892, 12443341522100), (2269, 102549350754, 61855664531160),
  (1919, 501297395549, 9916062095550), (1923, 28688549585, 3101948863700),
  (1878, 569299116574, 21011770170030), (1679, 25635730278, 29505122865420),
  (1656, 546039280732, 263422773147140), (1675, 615609073315, 64382943957710),
  (1953, 509846435548, 1740848773930), (1539, 275316078346, 41555249061210),
  (1467, 54812675158, 45884151979040), (1482, 376736278426, 53435683154060),
  (1446, 315802770791, 2512978191360), (1667, 26406950755, 83503713448730),
  (1472, 83054329617, 2831117565130), (1655, 88908548504, 178103134971940),
  (1294, 576241191046, 44082528487760), (1348, 249823510924, 98460033162190),
  (1352, 510869562455, 14956319713460), (1344, 1942249067, 221474308759620),
  (1188, 224279457878, 3149256938900), (1166, 80686346228, 73980866679490),
  (1322, 425691184168, 253824850425360), (1094, 602985819406, 273732050569000),
  (1112, 438204360670, 56193429400900), (1346, 320575848870, 52502509864860),
  (1056, 576507115032, 231072231481400), (1159, 46189564970, 6766805156650),
  (1027, 20709586018, 786430652620), (1143, 556626418636, 4647042291600),
  (1012, 54293005597, 53213864564940), (978, 513939194101, 220762954059540),
  (993, 203698185233, 31957326339430), (1035, 290231353535, 61144309831080),
  (1021, 475651217048, 52724328453980), (1308, 178809336431, 82474219374880),
  (964, 282269601958, 211165031337760), (896, 254505998806, 274443405269080),
  (890, 541036782817, 2845418800320), (906, 76565238554, 143950969814920),
  (985, 88687623770, 576049843189760), (983, 142102343372, 574627133789600),
  (892, 587250060663, 20300415469950), (942, 231049430734, 969070812811720),
  (941, 284331157527, 967648103411560), (867, 81020362547, 52427433912320),
  (829, 235178495412, 31245971639350), (912, 280494184378, 621977512350),
  (809, 105148218513, 52964278098480), (779, 480009242059, 94524345570670),
  (878, 576532521399, 164453140270), (953, 430945738629, 20936694217490),
  (772, 525607113566, 295061960112800), (745, 3810558502, 53510759106600)]

/-- `vsop87d_dict.py` 17572-17671. -/
def jupiterL1_2 : List (ℕ × ℕ × ℕ) := [
  (744, 58381523987, 2527279426550), (734, 20800485100, 104908698945070),
  (747, 271772840871, 3813303563780), (728, 597210358938, 94599421523210),
  (769, 451394016967, 95235700270750), (710, 38016353553, 6915252427480),
  (760, 307033779824, 3935687591520), (802, 114191463412, 53261172640140),
  (704, 125447308120, 54785021235930), (721, 73855379162, 222897018159780),
  (794, 425051539085, 264134127847220), (795, 320588363820, 60447256366190),
  (818, 105229815343, 90981873305460), (724, 568281830264, 95310776223290),
  (836, 60410469174, 209742321937600), (669, 575757140051, 201567108615980),
  (682, 119994890339, 38724131496080), (640, 391546675664, 52872775724810),
  (809, 424929331276, 52973914920440), (819, 491540072376, 275154759969160),
  (692, 251162384766, 91693228005540), (784, 423651511312, 19513984817330),
  (762, 112201139619, 73269511979410), (617, 580920925081, 73905790726950),
  (727, 424401822698, 76025553592000), (591, 326075006572, 20225339517410),
  (552, 583533550039, 52677020378780), (640, 138530872949, 53065417294110),
  (577, 609100925678, 253113495725280), (620, 301917904435, 90270518605380),
  (722, 518171159557, 148447270830), (540, 378809230820, 295773314812880),
  (523, 363882376000, 43764389113990), (527, 580796427555, 305371237534660),
  (488, 499103190309, 48322054217860), (557, 411381202161, 285464037391020),
  (492, 76371083106, 160329998928540), (487, 555383951779, 262711418447060),
  (487, 586510858429, 72483081326790), (453, 61375011101, 115929331067010),
  (450, 228121042355, 306082592234740), (515, 478126059280, 44779581952650),
  (449, 470231576312, 93494851496820), (450, 191049508739, 59735901666110),
  (438, 601178917646, 317814579056760), (494, 53844942275, 135443315884340),
  (501, 551752195462, 243515573003500), (432, 364903264921, 31321047591890),
  (435, 302449828967, 53388375078860), (426, 507945534339, 252402141025200),
  (491, 359286364200, 23056457082540), (547, 34432090949, 125134038462480),
  (503, 157454509207, 45490936652730), (486, 439351469958, 46202291352810),
  (524, 203003740296, 127979457262800), (388, 558318013074, 73194436026870),
  (449, 111025492739, 5662235130260), (398, 519943284273, 326701147078460),
  (416, 170821917336, 24554242435240), (379, 180234948769, 265556837247380),
  (355, 165214516751, 7871375183040), (404, 172647262603, 114113406340540),
  (335, 601254286794, 96022130923370), (331, 174086938716, 49033408917940),
  (401, 30034336462, 233206295581640), (336, 264385574909, 102124889455140),
  (389, 31259289221, 241381508903260), (314, 573833529708, 115854255114470),
  (313, 474363791106, 93812990870590), (333, 80112437148, 158514074202070),
  (323, 352656245280, 327412501778540), (395, 173181407631, 159300504854690),
  (302, 464184749164, 126163532536330), (325, 54991590409, 4328902917830),
  (293, 97977818746, 158589150154610), (341, 280833606944, 151429129671650),
  (304, 612522825214, 126238608488870), (286, 289800423081, 53021222995640),
  (387, 46648572639, 159225428902150), (285, 456394598052, 126874887236410),
  (310, 469102289591, 7626607127560), (278, 549867187248, 28096714700450),
  (358, 545926487831, 11338771495710), (283, 109230506350, 106182961074400),
  (326, 60265259639, 82792358748650), (284, 536580034539, 116565609814550),
  (281, 554635461050, 337010424500320), (269, 392616563946, 4253826965290),
  (275, 258465453365, 37301422095920), (357, 139391983207, 149309366806600),
  (258, 596670694140, 126949963188950), (259, 256026216784, 914679006902100),
  (281, 274823090198, 469400295470760), (281, 301324655940, 32032402291970),
  (272, 418504958920, 862421265092720), (245, 124462798353, 25265597135320),
  (244, 202892764690, 337721779200400), (324, 184851618413, 128994650101460),
  (221, 622167997496, 328123856478620), (238, 393371505401, 317103224356680)]

/-- `vsop87d_dict.py` 17672-17740. -/
def jupiterL1_3 : List (ℕ × ℕ × ℕ) := [
  (226, 594296271326, 22434479570190), (213, 368264234750, 104833622992530),
  (216, 582941334164, 156773225428140), (295, 470194747095, 306793946934820),
  (206, 498184230959, 135761455258110), (202, 132439444045, 432639340097380),
  (227, 78540105705, 5980374504030), (237, 556926897693, 294350605412720),
  (207, 7907015398, 522369391980220), (199, 330501818656, 412020785253660),
  (194, 595526916809, 8493352695390), (266, 158032565718, 98311585891360),
  (198, 431078641704, 401711507831800), (198, 30166351366, 116640685767090),
  (188, 90738705875, 13533610313300), (186, 69289672485, 9279783348010),
  (182, 118931462257, 151280682400820), (191, 104146023518, 188412412393800),
  (174, 613734594396, 359763043444280), (189, 35191512844, 137259240610810),
  (172, 435250972697, 157802719501990), (173, 230241719278, 117670179840940),
  (220, 106991056825, 220051599359460), (186, 490511103807, 358340334044120),
  (189, 24160744024, 167082502850000), (206, 1485146863, 273020695868920),
  (174, 183997277029, 74692221379570), (225, 313108099660, 63033605875840),
  (206, 522730929781, 399577443731560), (169, 257956682688, 916101716302260),
  (165, 151795928301, 401000153131720), (181, 205055200822, 84290144101350),
  (181, 596554625357, 157877795454530), (166, 155114863100, 107042763045310),
  (157, 587839958880, 391402230409940), (160, 43729819176, 254536205125440),
  (168, 573975661792, 284752682690940), (157, 225764581068, 85001498801430),
  (187, 64918748618, 84215068148810), (180, 188055488803, 68547393735270),
  (153, 415259684562, 433350694797460), (154, 365536637158, 7773401845962799),
  (151, 317795437121, 359051688744200), (155, 387623547990, 32743756992050),
  (171, 333647878498, 191257831194120), (188, 453005359421, 104122268292450),
  (134, 409921613445, 53044172462000), (123, 479543460218, 109873880610440),
  (161, 202006564218, 86030992875280), (143, 240197278329, 52916970023280),
  (115, 155831212007, 915390361602180), (106, 594313244357, 105789745748090),
  (119, 510578428676, 105693424963440), (100, 574974781049, 50123677709140),
  (94, 140134175492, 105933374607940), (98, 379115318281, 49744763618020),
  (90, 409610113044, 106404779663520), (102, 110442899544, 196920066324380),
  (87, 58218477838, 117352040467170), (109, 383745968299, 52549817940060),
  (94, 459915291355, 105943011429900), (118, 611701561559, 106967687092770),
  (107, 540509332689, 67925416222920), (89, 590037690244, 75721715453420),
  (78, 606217863109, 97051624997220), (80, 545470236239, 316391869656600),
  (72, 565789862232, 115142900414390), (80, 4539720100, 108072257119160),
  (75, 426526686574, 105841872234270)]

/-- `vsop87d_dict.py` 17371-17741. -/
def jupiterL1 : List (ℕ × ℕ × ℕ) := List.flatten [
  jupiterL1_0, jupiterL1_1, jupiterL1_2, jupiterL1_3]

/-- `vsop87d_dict.py` 17743-17842. -/
def jupiterL2_0 : List (ℕ × ℕ × ℕ) := [
  (47233598, 432148323554, 711354700080), (30629053, 293021440216, 52969096509460),
  (38965550, 0, 0), (3189317, 105504615595, 52257741809380),
  (2723358, 341411526638, 105938193018920), (2729292, 484545481351, 53680451209540),
  (1721069, 418734385158, 1422709400160), (383258, 576790714387, 41948464387520),
  (367498, 605509120409, 10309277421860), (377524, 76048964872, 51546387109300),
  (337386, 378644384244, 318139373770), (308200, 69356654052, 20618554843720),
  (218408, 381389191353, 158907289528380), (198883, 533996443444, 106649547719000),
  (197445, 248356402053, 393215326310), (146230, 381373196838, 63989728631400),
  (155862, 140642426467, 105226838318840), (129570, 583738872525, 41237109687440),
  (141932, 163435169016, 42659819087600), (117327, 141435462588, 62567019231240),
  (96733, 403383427887, 11020632121940), (90823, 110630629042, 9597922721780),
  (78769, 463726131329, 54391805909620), (72392, 221716670026, 73587651353180),
  (87292, 252235174825, 63278373931320), (56910, 312292059854, 21329909543800),
  (48622, 167283791618, 30927832265580), (58475, 83216317444, 19907200143640),
  (40150, 402485444740, 2134064100240), (39784, 62416945827, 32350541665740),
  (35718, 232581247002, 72876296653100), (25620, 251240623862, 116247470440780),
  (29255, 360838327799, 1029494073850), (23591, 300532139306, 95628915597060),
  (27814, 323992013743, 83896928775040), (25993, 450118298290, 74299006053260),
  (25194, 121868110687, 104515483618760), (19458, 429028644674, 53287235883230),
  (17660, 80953941560, 50835032409220), (15355, 581037986941, 159618644228460),
  (17058, 420001977723, 211876386037840), (17040, 183402146640, 52650957135690),
  (14661, 399989622586, 11731986822020), (13639, 180336677963, 30216477565500),
  (13230, 251856643603, 8886568021700), (12756, 436856232414, 116958825140860),
  (15292, 68174165476, 94206206196900), (10986, 443586634639, 52575881183150),
  (13920, 595169568482, 31639186965660), (9437, 217684563456, 115536115740700),
  (8812, 329452783338, 22041264243880), (7823, 575672228354, 84608283475120),
  (7549, 270955516779, 53362311835770), (9681, 171563161051, 158195934828300),
  (8690, 331924493607, 83185574074960), (6285, 49939863541, 94917560896980),
  (6685, 217560093281, 126556747862640), (5381, 600510875948, 40525754987360),
  (4676, 140846192799, 125845393162560), (4421, 302360159274, 169216566950240),
  (4403, 547737266160, 43371173787680), (4286, 507139951645, 107360902419080),
  (4201, 528560721767, 1815924726470), (3933, 126665387164, 85319638175200),
  (5351, 365320121089, 127268102562720), (4392, 227325303667, 136866025284500),
  (3482, 153983001273, 51939602435610), (2745, 209685315627, 147886657406440),
  (2737, 106017230524, 157484580128220), (2897, 205128453665, 136154670584420),
  (3075, 99085727534, 19195845443560), (2462, 237173605635, 147175302706360),
  (2203, 247960567714, 72164941953020), (2096, 371482580504, 148598012106520),
  (1984, 188475229557, 168505212250160), (2274, 303360234351, 114824761040620),
  (2041, 617114556019, 33061896365820), (1451, 472055072637, 3224332891440),
  (1454, 514703918585, 137577379984580), (1447, 318833439444, 63596513305090),
  (1403, 426712075104, 55103160609700), (1420, 199288040133, 62960234557550),
  (1269, 3300387779, 212587740737920), (1276, 226356919237, 178814489672020),
  (1189, 170223550488, 167793857550080), (1182, 218142313946, 179525844372100),
  (1366, 127629917215, 103804128918680), (1306, 476302079847, 106256332392690),
  (1109, 297787130235, 8175213321620), (1027, 199236027398, 29505122865420),
  (1349, 401621534182, 53998590583310), (1025, 375336759986, 2845418800320),
  (977, 301355125761, 12443341522100), (1290, 462594234857, 264845482547300),
  (1065, 506153058155, 169927921650320), (965, 117716405513, 9991138048090),
  (1021, 190712102660, 75010360753340), (923, 353450109212, 22752618943960),
  (1059, 13532061468, 41630325013750), (836, 207492422755, 105620053645150)]

/-- `vsop87d_dict.py` 17843-17933. -/
def jupiterL2_1 : List (ℕ × ℕ × ℕ) := [
  (889, 175177808106, 189835121793960), (772, 289217715561, 200855753915900),
  (1014, 280847772922, 146463948006280), (820, 199735697577, 211165031337760),
  (787, 491912237671, 105544977692610), (743, 265209650690, 10627416795630),
  (705, 8006443278, 96340270297140), (724, 329664246938, 62885158605010),
  (791, 164655202110, 200144399215820), (822, 274067639972, 61855664531160),
  (761, 126393500358, 138288734684660), (650, 119590511216, 42266603761290),
  (677, 188476058357, 210453676637680), (681, 547481665606, 576049843189760),
  (681, 311621209674, 574627133789600), (644, 468385640894, 61144309831080),
  (752, 303497138894, 222185663459700), (641, 186274530783, 63671589257630),
  (614, 307677356670, 38012776796000), (635, 453916684689, 967648103411560),
  (635, 61458805483, 969070812811720), (822, 625170365084, 42341679713830),
  (762, 432362906505, 180237199072180), (582, 84137872868, 189123767093880),
  (558, 396171840325, 44082528487760), (624, 283657771014, 190546476494040),
  (711, 343538032357, 82474219374880), (517, 110660016329, 10702492748170),
  (535, 155761050176, 199433044515740), (501, 444389802599, 64701083331480),
  (414, 537130370397, 222897018159780), (533, 254756313371, 178103134971940),
  (393, 126351262287, 21011770170030), (433, 290103969634, 106331408345230),
  (384, 136194621083, 20300415469950), (440, 146934545869, 221474308759620),
  (424, 498974282486, 317814579056760), (338, 272210106345, 232494940881560),
  (332, 37505564414, 265556837247380), (318, 611024720065, 93494851496820),
  (405, 351005860013, 275154759969160), (388, 500609647265, 201567108615980),
  (424, 429668654117, 575338488489680), (328, 235571531981, 125134038462480),
  (316, 16949503062, 127979457262800), (345, 289328206121, 295773314812880),
  (303, 163964826684, 242804218303420), (328, 336132375845, 114113406340540),
  (294, 248947693371, 264134127847220), (350, 150537240918, 231783586181480),
  (287, 169638214958, 242092863603340), (272, 27466529753, 31957326339430),
  (303, 243034117616, 7084944530420), (251, 43544711316, 325989792378380),
  (224, 449752269293, 522369391980220), (272, 298590404673, 145752593306200),
  (228, 547896916415, 160329998928540), (288, 230146999217, 285464037391020),
  (207, 594297320087, 915390361602180), (243, 158604251447, 274443405269080),
  (228, 128182702946, 231072231481400), (224, 128623905132, 306082592234740),
  (222, 63265553397, 316391869656600), (242, 252382905368, 327412501778540),
  (188, 600513627145, 9204707395470), (239, 193897157244, 241381508903260),
  (214, 114529237568, 253113495725280), (200, 342280996072, 9916062095550),
  (179, 53892926207, 220762954059540), (177, 556545270243, 233206295581640),
  (172, 138604067808, 94599421523210), (203, 41899069603, 284041327990860),
  (231, 226353330460, 209742321937600), (228, 382701076821, 11338771495710),
  (165, 408776703733, 628307584999140), (202, 330429764992, 306793946934820),
  (224, 369285208525, 243515573003500), (214, 255756944911, 253824850425360),
  (203, 224205059922, 6766805156650), (152, 548122906518, 1021328554621100),
  (191, 268685722531, 177391780271860), (189, 295184620359, 73269511979410),
  (149, 198737542735, 104908698945070), (163, 124084734609, 305371237534660),
  (171, 234210749987, 135443315884340), (112, 577407285790, 54785021235930),
  (124, 14001204498, 86030992875280), (86, 126924601636, 51153171782990),
  (114, 515982838070, 159225428902150), (91, 148896790758, 156773225428140),
  (86, 434444949905, 106967687092770)]

/-- `vsop87d_dict.py` 17742-17934. -/
def jupiterL2 : List (ℕ × ℕ × ℕ) := List.flatten [
  jupiterL2_0, jupiterL2_1]

/-- `vsop87d_dict.py` 17936-18035. -/
def jupiterL3_0 : List (ℕ × ℕ × ℕ) := [
  (6501665, 259862880482, 711354700080), (1356524, 134635886411, 52969096509460),
  (470716, 247503977883, 1422709400160), (416960, 324451243214, 53680451209540),
  (352851, 297360159003, 52257741809380), (154880, 207565585817, 105938193018920),
  (86771, 251431584316, 51546387109300), (33538, 382633794497, 106649547719000),
  (44378, 0, 0), (22644, 298231326774, 54391805909620),
  (23737, 127667172313, 41237109687440), (28457, 244754756058, 20618554843720),
  (19798, 210099934005, 63989728631400), (19740, 140255938973, 41948464387520),
  (18768, 159368403500, 10309277421860), (17033, 230214681202, 2134064100240),
  (16774, 259821460673, 158907289528380), (16214, 314521117299, 62567019231240),
  (16055, 336030126297, 105226838318840), (13392, 275973892202, 9597922721780),
  (13234, 253862244340, 19907200143640), (12611, 626578110400, 42659819087600),
  (8637, 226563256289, 11020632121940), (6725, 342566433316, 30927832265580),
  (8701, 176334960737, 1029494073850), (6527, 403869562907, 72876296653100),
  (5368, 525196153539, 32350541665740), (5675, 252096417685, 50835032409220),
  (5399, 291184687105, 104515483618760), (3996, 430290261177, 8886568021700),
  (3857, 352381361552, 30216477565500), (3774, 409125315146, 73587651353180),
  (3269, 143175991274, 95628915597060), (2783, 435817507670, 159618644228460),
  (2661, 125276590759, 21329909543800), (2553, 223785673285, 11731986822020),
  (2371, 289662409244, 74299006053260), (2656, 501505839848, 83896928775040),
  (1948, 277248294666, 116958825140860), (2279, 235581871230, 94206206196900),
  (1474, 161011468581, 22041264243880), (1457, 309381959396, 211876386037840),
  (1937, 501388256693, 83185574074960), (1585, 140097680805, 40525754987360),
  (1257, 397811260358, 115536115740700), (1227, 345959919972, 107360902419080),
  (986, 339209446167, 53287235883230), (942, 270200385825, 19195845443560),
  (828, 148348768286, 63278373931320), (797, 110706688850, 116247470440780),
  (822, 330295824153, 125845393162560), (710, 589798771980, 85319638175200),
  (766, 366351539483, 158195934828300), (722, 374673245797, 43371173787680),
  (663, 293063953915, 157484580128220), (658, 352797311863, 52575881183150),
  (609, 414881313523, 72164941953020), (598, 469454609357, 8175213321620),
  (668, 196442971289, 127268102562720), (515, 157251270902, 94917560896980),
  (658, 202329201466, 52650957135690), (517, 435827478516, 136866025284500),
  (510, 495846155301, 114824761040620), (507, 431396370095, 33061896365820),
  (567, 227813343743, 55103160609700), (480, 386758235988, 136154670584420),
  (383, 24287136454, 61144309831080), (434, 295461755540, 103804128918680),
  (377, 142957648215, 12443341522100), (391, 407770324592, 147175302706360),
  (385, 470295179800, 51939602435610), (428, 222472522305, 53998590583310),
  (343, 483463725823, 212587740737920), (394, 452891996323, 146463948006280),
  (305, 202797683648, 148598012106520), (283, 97461612169, 190546476494040),
  (276, 383552772064, 106256332392690), (351, 206334334462, 53362311835770),
  (304, 393228052293, 168505212250160), (322, 354763044791, 84608283475120),
  (345, 418332148409, 178814489672020), (253, 312703531516, 199433044515740),
  (257, 105361498985, 147886657406440), (232, 169999081817, 169216566950240),
  (225, 251624149780, 189123767093880), (217, 458512911216, 96340270297140),
  (277, 363353707701, 167793857550080), (242, 290163762388, 231072231481400),
  (211, 396419403991, 29505122865420), (199, 517046500750, 61855664531160),
  (256, 419052619061, 178103134971940), (192, 81556540966, 222185663459700),
  (187, 349895198981, 264845482547300), (208, 411838429822, 209742321937600),
  (183, 330680692414, 169927921650320), (231, 254516792766, 137577379984580),
  (189, 574277274755, 262711418447060), (214, 548031974537, 135443315884340),
  (220, 387471989410, 210453676637680), (171, 610827209399, 138288734684660)]

/-- `vsop87d_dict.py` 18036-18044. -/
def jupiterL3_1 : List (ℕ × ℕ × ℕ) := [
  (184, 598415847544, 75010360753340), (171, 525744961028, 82474219374880),
  (151, 430799091626, 200144399215820), (140, 427089466070, 126556747862640),
  (97, 467188056608, 64701083331480), (88, 243775210355, 44082528487760),
  (75, 393105183253, 105544977692610), (79, 188533153220, 93494851496820),
  (77, 380503143236, 160329998928540)]

/-- `vsop87d_dict.py` 17935-18045. -/
def jupiterL3 : List (ℕ × ℕ × ℕ) := List.flatten [
  jupiterL3_0, jupiterL3_1]

/-- `vsop87d_dict.py` 18047-18091. -/
def jupiterL4_0 : List (ℕ × ℕ × ℕ) := [
  (669483, 85282421090, 711354700080), (99961, 74258947751, 1422709400160),
  (114019, 314159265359, 0), (50024, 165346208248, 53680451209540),
  (43585, 582026386621, 52969096509460), (31813, 485829986650, 52257741809380),
  (14742, 429061635784, 51546387109300), (8899, 71478520741, 105938193018920),
  (4957, 129502259434, 54391805909620), (4484, 231715516627, 106649547719000),
  (4251, 48326797501, 2134064100240), (3100, 300245542678, 41237109687440),
  (2055, 39858940218, 63989728631400), (1762, 490536207307, 62567019231240),
  (1902, 425925620271, 19907200143640), (1695, 426147580803, 20618554843720),
  (1375, 525546955667, 105226838318840), (1203, 471614633845, 9597922721780),
  (1086, 128604571172, 158907289528380), (982, 477990073662, 104515483618760),
  (935, 605847062188, 8886568021700), (916, 577537499431, 72876296653100),
  (890, 455299189579, 42659819087600), (784, 340161567950, 41948464387520),
  (768, 354672049322, 10309277421860), (670, 52223307700, 11020632121940),
  (415, 522809480633, 30216477565500), (393, 624184621807, 95628915597060),
  (381, 525466966040, 30927832265580), (421, 59561318533, 11731986822020),
  (346, 478348312106, 50835032409220), (319, 347979828725, 32350541665740),
  (331, 295893485883, 159618644228460), (295, 432713459459, 94206206196900),
  (319, 47990052824, 83185574074960), (251, 179898001222, 107360902419080),
  (212, 43917684084, 22041264243880), (188, 112654974776, 116958825140860),
  (188, 216135407548, 136154670584420), (180, 343266428069, 114824761040620),
  (164, 192864127211, 211876386037840), (157, 302963907392, 127268102562720),
  (93, 560436000012, 158195934828300), (85, 502317256200, 115536115740700),
  (75, 313198879608, 63278373931320)]

/-- `vsop87d_dict.py` 18046-18092. -/
def jupiterL4 : List (ℕ × ℕ × ℕ) := jupiterL4_0

/-- `vsop87d_dict.py` 18094-18103. -/
def jupiterL5_0 : List (ℕ × ℕ × ℕ) := [
  (49577, 525658966184, 711354700080), (15761, 525126837478, 1422709400160),
  (4343, 1461869263, 53680451209540), (1526, 109739911439, 52257741809380),
  (728, 585949047619, 54391805909620), (694, 87382487754, 51546387109300),
  (845, 314159265359, 0), (456, 81521692852, 106649547719000),
  (293, 562909357048, 105938193018920), (90, 21178119710, 52969096509460)]

/-- `vsop87d_dict.py` 18093-18104. -/
def jupiterL5 : List (ℕ × ℕ × ℕ) := jupiterL5_0

/-- `vsop87d_dict.py` 16608-18105 `_planets[("Jupiter", "L")]`. -/
def jupiterL : List (List (ℕ × ℕ × ℕ)) :=
  [jupiterL0, jupiterL1, jupiterL2, jupiterL3, jupiterL4, jupiterL5]

/-- `vsop87d_dict.py` 18108-18207. -/
def jupiterB0_0 : List (ℕ × ℕ × ℕ) := [
  (2268615703, 355852606718, 52969096509460), (109971634, 390809347389, 105938193018920),
  (110090358, 0, 0), (8101427, 360509573368, 52257741809380),
  (6043996, 425883108794, 158907289528380), (6437782, 30627121409, 53680451209540),
  (1106880, 298534421928, 116247470440780), (941651, 293619072405, 105226838318840),
  (894088, 175447429921, 711354700080), (767280, 215473594060, 63278373931320),
  (944328, 167522288396, 42659819087600), (684220, 367808770098, 21329909543800),
  (629223, 64343282328, 106649547719000), (835861, 517881973234, 10309277421860),
  (531670, 270305954352, 11020632121940), (558524, 1354830508, 84608283475120),
  (464449, 117337249185, 94917560896980), (431072, 260825000494, 41948464387520),
  (351433, 461062990714, 211876386037840), (123148, 334968181384, 169216566950240),
  (115038, 504892295442, 31639186965660), (132160, 477816990670, 74299006053260),
  (103402, 231878999565, 147886657406440), (116379, 138688232033, 32350541665740),
  (102420, 315293785436, 158195934828300), (103762, 370103838110, 51546387109300),
  (78650, 398318653238, 126556747862640), (69935, 256006216424, 95628915597060),
  (55597, 37500753017, 137577379984580), (51986, 99007119033, 159618644228460),
  (55194, 40176412035, 52575881183150), (63456, 450073574333, 73587651353180),
  (49691, 18649893085, 54391805909620), (48831, 357260550671, 53362311835770),
  (28353, 153532744749, 62567019231240), (29209, 543145863011, 20618554843720),
  (23255, 595197992848, 83896928775040), (22841, 619262787685, 53287235883230),
  (23202, 406473368575, 52650957135690), (24436, 610947656959, 116958825140860),
  (21116, 496322972735, 264845482547300), (17879, 308704395969, 179525844372100),
  (16234, 483515727869, 136866025284500), (21314, 269476951059, 104515483618760),
  (15740, 115130330106, 94206206196900), (17325, 161550009206, 1422709400160),
  (13396, 230539585502, 85319638175200), (11904, 309811974536, 211165031337760),
  (11734, 283006431723, 200855753915900), (11291, 98957560201, 43371173787680),
  (11830, 476527836803, 30927832265580), (10702, 370181397065, 222185663459700),
  (10815, 581958878617, 127268102562720), (13505, 328126975760, 115536115740700),
  (10179, 258691128827, 11731986822020), (10632, 523487936086, 9597922721780),
  (8771, 40456546655, 22041264243880), (7439, 294638292086, 41237109687440),
  (6151, 269100382247, 38012776796000), (5028, 72750312028, 105544977692610),
  (4939, 73756716762, 190546476494040), (5421, 408612438558, 168505212250160),
  (5936, 432059910537, 106331408345230), (4737, 409303016850, 52724328453980),
  (4010, 51530008355, 107360902419080), (4709, 184067645204, 98460033162190),
  (3974, 133608029246, 212587740737920), (3762, 358647039394, 52973914920440),
  (4731, 616377350841, 53213864564940), (4666, 588762905802, 63989728631400),
  (3763, 38865925413, 52964278098480), (3409, 405398247269, 189835121793960),
  (3457, 343865563497, 148598012106520), (4229, 223767157901, 7478159856730),
  (3091, 16470256025, 169927921650320), (2975, 72268908074, 53065417294110),
  (3162, 125048416420, 33061896365820), (2727, 437679213321, 14956319713460),
  (2837, 5987107395, 143950969814920), (2983, 325251207220, 52872775724810),
  (2232, 26149880534, 106256332392690), (2464, 116913304420, 45342489381900),
  (2596, 330510149086, 232494940881560), (1988, 285269577619, 157484580128220),
  (2527, 594458202950, 90981873305460), (2269, 130379329597, 393215326310),
  (1742, 449909767044, 125845393162560), (1714, 412945878208, 200144399215820),
  (2029, 397938086639, 105620053645150), (1667, 36037092553, 1021328554621100),
  (1579, 611640144795, 180237199072180), (1393, 369324470827, 221474308759620),
  (1604, 198841031703, 3813303563780), (1325, 174025919863, 52916970023280),
  (1451, 239804501178, 242804218303420), (1594, 207556780757, 102124889455140),
  (1320, 133770977126, 61855664531160), (1346, 327591492540, 264134127847220),
  (1230, 19552728220, 30534616939270), (1223, 286681556337, 138288734684660)]

/-- `vsop87d_dict.py` 18208-18307. -/
def jupiterB0_1 : List (ℕ × ℕ × ℕ) := [
  (1324, 223549334986, 53021222995640), (1056, 380579750957, 7626607127560),
  (1050, 468011652614, 178814489672020), (1226, 534003255221, 317814579056760),
  (1009, 319608028376, 253824850425360), (1266, 304704446731, 60447256366190),
  (954, 386932544808, 72876296653100), (1124, 159560367480, 318139373770),
  (978, 25223689838, 98311585891360), (948, 21552742733, 75010360753340),
  (946, 393927748120, 50835032409220), (920, 114672086939, 96340270297140),
  (817, 593809619876, 83185574074960), (770, 296062737592, 52677020378780),
  (1017, 555711112145, 19907200143640), (761, 138163787157, 53261172640140),
  (726, 398337964395, 231783586181480), (862, 87975657414, 49033408917940),
  (868, 344331872364, 56904784100980), (711, 411107052823, 275154759969160),
  (708, 33555577415, 52894020556920), (708, 400539820601, 53044172462000),
  (656, 439568451439, 51939602435610), (801, 403984430862, 136472809958190),
  (679, 118645749024, 52549817940060), (645, 510510349996, 136154670584420),
  (668, 315607509055, 53388375078860), (663, 73722024843, 522369391980220),
  (663, 157092786811, 628307584999140), (543, 26376529935, 22752618943960),
  (525, 622318693939, 53998590583310), (513, 498337900151, 30216477565500),
  (544, 222227019273, 274443405269080), (532, 262425372687, 9916062095550),
  (602, 156074089013, 45490936652730), (518, 26343805959, 55103160609700),
  (516, 109376390349, 93494851496820), (659, 62560671589, 151280682400820),
  (524, 64710955846, 52406189080210), (516, 369478866795, 53532003938710),
  (491, 363039940597, 253113495725280), (570, 61976758791, 54073666535850),
  (496, 219398015038, 151429129671650), (532, 20040217534, 52502509864860),
  (493, 39160693598, 22434479570190), (449, 62392433691, 52953090640020),
  (449, 371676131146, 52985102378900), (450, 502467015031, 104833622992530),
  (428, 544804660290, 1104570026390), (499, 413924061941, 53435683154060),
  (528, 176471074936, 52427433912320), (454, 453321742354, 105693424963440),
  (520, 257406093768, 53510759106600), (398, 140345870113, 96022130923370),
  (457, 417708652827, 210453676637680), (505, 536536256321, 105789745748090),
  (535, 480455380313, 159300504854690), (415, 96548127237, 243515573003500),
  (519, 54543519483, 106182961074400), (359, 402704454075, 105943011429900),
  (356, 266818105522, 83503713448730), (443, 527513700376, 148447270830),
  (358, 594423960514, 44082528487760), (471, 605791940453, 147175302706360),
  (386, 215984900214, 915390361602180), (424, 270929670030, 103804128918680),
  (359, 82922836987, 105933374607940), (310, 88102053266, 52990341341570),
  (310, 345966511571, 52947851677350), (300, 370331799503, 263422773147140),
  (292, 263594456361, 41555249061210), (279, 160669121578, 64382943957710),
  (291, 583134071820, 114824761040620), (370, 571572992274, 53117543780290),
  (268, 539275891813, 189123767093880), (275, 334108666036, 51864526483070),
  (269, 106051406954, 158514074202070), (306, 250289017370, 51153171782990),
  (295, 184394223501, 54785021235930), (254, 298312992496, 113416352875650),
  (289, 186070918711, 2134064100240), (265, 493075479744, 67925416222920),
  (250, 42860925124, 196920066324380), (308, 267237933272, 295773314812880),
  (313, 488085697819, 52820649238630), (222, 478828764413, 51471311156760),
  (221, 432763468981, 167793857550080), (217, 346278526461, 295061960112800),
  (216, 52207667980, 222897018159780), (214, 583569926578, 54466881862160),
  (283, 288709716090, 3542472265210), (272, 165708415457, 306082592234740),
  (234, 168821537711, 265556837247380), (205, 336186888290, 284752682690940),
  (264, 362722625694, 242092863603340), (191, 426821147044, 43053034413910),
  (179, 391470663005, 334061242669980), (180, 4531671003, 38724131496080),
  (241, 403927631611, 49426624244250), (176, 426298906325, 67214061522840)]

/-- `vsop87d_dict.py` 18308-18356. -/
def jupiterB0_2 : List (ℕ × ℕ × ℕ) := [
  (187, 272587420586, 29912639426920), (234, 134474827450, 17394221952280),
  (171, 85473611718, 160329998928540), (224, 33130232434, 56511568774670),
  (200, 127632489123, 3935687591520), (170, 496479470273, 146463948006280),
  (211, 100937080256, 52354062594030), (210, 375793720248, 285464037391020),
  (162, 587784787295, 348031056622260), (163, 462850343495, 201567108615980),
  (191, 333159283750, 53584130424890), (151, 117096741034, 106034513803570),
  (160, 181852636004, 31245971639350), (158, 259595816107, 52943033266370),
  (158, 174472748730, 52995159752550), (173, 362399350412, 23056457082540),
  (142, 70435921398, 52252923398400), (144, 535763122430, 10702492748170),
  (144, 613954848857, 115854255114470), (178, 27566275049, 390690875709860),
  (126, 514832919826, 220762954059540), (126, 341994798109, 244768055480),
  (127, 39825164051, 7084944530420), (123, 477865550523, 252402141025200),
  (123, 46184813516, 64701083331480), (144, 360261852727, 105841872234270),
  (158, 376231915252, 9204707395470), (119, 408266911415, 158589150154610),
  (125, 235496721797, 316391869656600), (122, 321027426317, 337721779200400),
  (121, 339770381916, 1815924726470), (131, 167926417552, 128994650101460),
  (115, 235735471566, 155093985964600), (126, 240833814513, 10627416795630),
  (131, 137610474529, 102395720753710), (121, 160252617273, 1029494073850),
  (121, 61420823557, 159225428902150), (135, 360177675518, 12443341522100),
  (137, 241724947062, 327412501778540), (129, 9702914345, 233206295581640),
  (93, 488949890397, 109873880610440), (106, 518592950792, 228123049651060),
  (114, 296523316419, 116640685767090), (92, 165166124027, 86030992875280),
  (102, 364093193142, 317103224356680), (103, 163066232967, 189441906467650),
  (80, 38766601876, 469400295470760), (74, 386865238736, 306793946934820),
  (95, 166362447044, 115142900414390)]

/-- `vsop87d_dict.py` 18107-18357. -/
def jupiterB0 : List (ℕ × ℕ × ℕ) := List.flatten [
  jupiterB0_0, jupiterB0_1, jupiterB0_2]

/-- `vsop87d_dict.py` 18359-18458. -/
def jupiterB1_0 : List (ℕ × ℕ × ℕ) := [
  (177351787, 570166488486, 52969096509460), (3230171, 577941619340, 105938193018920),
  (3081364, 547464296527, 52257741809380), (2211914, 473477480209, 53680451209540),
  (1694232, 314159265359, 0), (346445, 474595174109, 105226838318840),
  (234264, 518856099929, 106649547719000), (196154, 618554286642, 711354700080),
  (150468, 392721226087, 158907289528380), (114128, 343897271830, 63278373931320),
  (96667, 291426304090, 94917560896980), (76599, 250522188662, 10309277421860),
  (81671, 507666097497, 116247470440780), (76572, 61288981445, 41948464387520),
  (73875, 549958292155, 51546387109300), (49915, 394799616572, 73587651353180),
  (60544, 544740084359, 21329909543800), (36561, 469828392839, 54391805909620),
  (46032, 53850360901, 11020632121940), (45123, 189516645239, 84608283475120),
  (36019, 610952578764, 31639186965660), (31975, 492452714629, 158195934828300),
  (21015, 562957731410, 159618644228460), (23156, 584829490183, 32350541665740),
  (24719, 394107395247, 211876386037840), (17274, 565310656429, 53362311835770),
  (16521, 589840100621, 52650957135690), (16698, 566663034948, 126556747862640),
  (15815, 443314786393, 104515483618760), (13398, 430179033605, 53287235883230),
  (11744, 180990486955, 95628915597060), (11925, 430094564154, 52575881183150),
  (9514, 202589667166, 20618554843720), (10542, 615533910933, 1422709400160),
  (8414, 392910450340, 147886657406440), (8099, 420152809071, 116958825140860),
  (7712, 299160389601, 94206206196900), (8825, 155897920307, 42659819087600),
  (8884, 487430124264, 115536115740700), (7793, 384684930196, 62567019231240),
  (5646, 340915964493, 63989728631400), (4615, 83374662294, 11731986822020),
  (4020, 550502127885, 43371173787680), (3704, 90226777963, 9597922721780),
  (3859, 69640284662, 85319638175200), (3091, 509115860882, 107360902419080),
  (3360, 510133284081, 169216566950240), (2892, 490418916660, 22041264243880),
  (2772, 509066125724, 211165031337760), (2425, 374438653232, 74299006053260),
  (2558, 546955948791, 179525844372100), (2466, 422278355430, 264845482547300),
  (1968, 57192251841, 30927832265580), (1794, 460765219417, 127268102562720),
  (1822, 198842964323, 137577379984580), (1703, 612660562937, 212587740737920),
  (2011, 500936865256, 41237109687440), (1645, 8830372958, 106331408345230),
  (1875, 581006158403, 33061896365820), (1741, 458650290431, 157484580128220),
  (1529, 581660291389, 125845393162560), (1916, 85150399517, 136866025284500),
  (1614, 436839107221, 72876296653100), (1510, 279374165455, 148598012106520),
  (1333, 484260898693, 106256332392690), (1359, 516511980864, 83896928775040),
  (1165, 566275740881, 50835032409220), (1092, 468797557406, 169927921650320),
  (1438, 578105679279, 105620053645150), (1083, 399886917926, 147175302706360),
  (1002, 479949608524, 105544977692610), (749, 614400862030, 51939602435610),
  (657, 563765568876, 189835121793960), (702, 504126574492, 168505212250160),
  (607, 315707515246, 61855664531160), (587, 137658820775, 19907200143640),
  (552, 480657729450, 55103160609700), (494, 443417307482, 53998590583310),
  (517, 5161181997, 318139373770), (469, 381715950042, 200855753915900),
  (415, 134693184108, 138288734684660), (382, 486764073919, 22752618943960),
  (473, 172405831407, 53213864564940), (458, 444604993015, 103804128918680),
  (376, 223190744786, 52964278098480), (451, 375869883836, 98460033162190),
  (376, 542971857629, 52973914920440), (389, 192698506631, 52502509864860),
  (364, 335456685746, 222185663459700), (476, 593625415892, 52724328453980),
  (383, 612255867339, 14956319713460), (301, 409378934049, 44082528487760),
  (310, 558150418981, 242804218303420), (282, 485996662231, 178814489672020),
  (298, 509589374634, 52872775724810), (340, 456537070220, 75010360753340),
  (272, 235346960340, 53435683154060), (360, 391050161665, 7478159856730),
  (299, 143093538841, 90981873305460), (297, 256584512211, 53065417294110)]

/-- `vsop87d_dict.py` 18459-18499. -/
def jupiterB1_1 : List (ℕ × ℕ × ℕ) := [
  (235, 481644489422, 53510759106600), (306, 68420442848, 38012776796000),
  (236, 463162956792, 52677020378780), (270, 18549916939, 2134064100240),
  (288, 426655874393, 180237199072180), (196, 535950443033, 221474308759620),
  (190, 454615193260, 210453676637680), (193, 435426216497, 51153171782990),
  (178, 451895208036, 317814579056760), (194, 57050756837, 136154670584420),
  (200, 148040474749, 30216477565500), (168, 540141749419, 52427433912320),
  (152, 68077486546, 190546476494040), (149, 106678990744, 83185574074960),
  (182, 362401009613, 3813303563780), (176, 564331384323, 96340270297140),
  (184, 448850356629, 60447256366190), (133, 545026366125, 264134127847220),
  (143, 221577268292, 143950969814920), (130, 488155705493, 253113495725280),
  (129, 615206333598, 54785021235930), (133, 543193972385, 160329998928540),
  (133, 349297492409, 52916970023280), (132, 398820790955, 53021222995640),
  (118, 538352943814, 189123767093880), (133, 565694269884, 7626607127560),
  (145, 294976686191, 45490936652730), (115, 329206553804, 393215326310),
  (102, 448856749557, 200144399215820), (106, 608434275898, 1029494073850),
  (93, 584737771840, 232494940881560), (101, 15815934254, 265556837247380),
  (115, 359221021604, 201567108615980), (103, 470399583323, 30534616939270),
  (84, 44180206332, 159300504854690), (92, 244863388631, 49033408917940),
  (87, 623817512863, 628307584999140), (95, 330154605532, 231783586181480),
  (72, 190578907085, 52894020556920), (72, 557619428876, 53044172462000),
  (78, 597323507836, 158589150154610)]

/-- `vsop87d_dict.py` 18358-18500. -/
def jupiterB1 : List (ℕ × ℕ × ℕ) := List.flatten [
  jupiterB1_0, jupiterB1_1]

/-- `vsop87d_dict.py` 18502-18582. -/
def jupiterB2_0 : List (ℕ × ℕ × ℕ) := [
  (8094051, 146322843658, 52969096509460), (742415, 95691639003, 52257741809380),
  (813244, 314159265359, 0), (398951, 289888666447, 53680451209540),
  (342226, 144683789727, 105938193018920), (73948, 40724675866, 105226838318840),
  (46151, 348036895772, 106649547719000), (29314, 99088831805, 51546387109300),
  (29717, 192504171329, 158907289528380), (22753, 427124052435, 711354700080),
  (13916, 292242387338, 54391805909620), (12067, 522168932482, 63278373931320),
  (10703, 488024222475, 94917560896980), (6078, 621089108431, 104515483618760),
  (5935, 52977760072, 158195934828300), (5037, 143444929374, 52650957135690),
  (4564, 91811732585, 116247470440780), (4547, 401953745202, 159618644228460),
  (5098, 603169795231, 73587651353180), (3593, 454080164408, 11020632121940),
  (3443, 138618954572, 53362311835770), (3277, 439650286553, 1422709400160),
  (3407, 42275631534, 41948464387520), (2904, 206041641723, 31639186965660),
  (2541, 398323842017, 32350541665740), (3113, 248079280193, 211876386037840),
  (3061, 239880866911, 53287235883230), (2155, 477990637140, 94206206196900),
  (2143, 388727338786, 42659819087600), (2252, 37196434120, 115536115740700),
  (2019, 389985000464, 84608283475120), (1857, 119658907851, 10309277421860),
  (1683, 142264195434, 126556747862640), (2313, 87671613055, 21329909543800),
  (1443, 238565505909, 116958825140860), (1823, 580106463776, 62567019231240),
  (1728, 224114678267, 52575881183150), (1198, 3252059731, 95628915597060),
  (1138, 346420904745, 107360902419080), (1086, 535279146700, 11731986822020),
  (840, 289946334223, 9597922721780), (746, 553017890231, 147886657406440),
  (944, 405587053500, 20618554843720), (758, 374770617289, 43371173787680),
  (673, 126396626349, 50835032409220), (889, 607878453176, 72876296653100),
  (600, 182954494089, 63989728631400), (589, 123625943417, 125845393162560),
  (619, 67923057477, 83896928775040), (566, 536336098734, 74299006053260),
  (648, 532990375008, 85319638175200), (553, 315511946637, 22041264243880),
  (432, 103719283016, 169216566950240), (435, 165056479007, 51939602435610),
  (430, 141830384501, 41237109687440), (431, 220986254651, 136866025284500),
  (415, 435372561905, 33061896365820), (438, 16552277290, 157484580128220),
  (312, 450639455819, 212587740737920), (280, 301441283033, 55103160609700),
  (309, 67399908949, 211165031337760), (301, 306868080871, 106256332392690),
  (236, 194696842200, 148598012106520), (235, 341850395941, 19907200143640),
  (246, 261803442505, 30927832265580), (238, 256643737684, 53998590583310),
  (248, 296997778167, 264845482547300), (209, 582481690851, 147175302706360),
  (205, 120202002469, 105620053645150), (188, 97113663101, 168505212250160),
  (137, 291203499563, 169927921650320), (131, 179274504072, 106331408345230),
  (161, 105926568614, 179525844372100), (112, 262660288825, 44082528487760),
  (110, 356263668146, 22752618943960), (114, 613907482464, 103804128918680),
  (103, 464287101040, 318139373770), (123, 481268110532, 2134064100240),
  (102, 427603827970, 137577379984580), (89, 122926014128, 189835121793960),
  (80, 62129648755, 83185574074960)]

/-- `vsop87d_dict.py` 18501-18583. -/
def jupiterB2 : List (ℕ × ℕ × ℕ) := jupiterB2_0

/-- `vsop87d_dict.py` 18585-18626. -/
def jupiterB3_0 : List (ℕ × ℕ × ℕ) := [
  (251624, 338087923084, 52969096509460), (121738, 273311837200, 52257741809380),
  (48694, 103689996685, 53680451209540), (10988, 231463561347, 105226838318840),
  (8067, 276729757621, 51546387109300), (6205, 178115827370, 106649547719000),
  (7287, 425268318975, 105938193018920), (3627, 113028917221, 54391805909620),
  (2798, 314159265359, 0), (1898, 228934054087, 711354700080),
  (1643, 177507208483, 104515483618760), (945, 45261136388, 63278373931320),
  (758, 30577920142, 94917560896980), (731, 263748223583, 1422709400160),
  (876, 32927768725, 158907289528380), (678, 236909615348, 158195934828300),
  (623, 248056213600, 159618644228460), (736, 152532370632, 73587651353180),
  (499, 367985494258, 41948464387520), (454, 26977404624, 94206206196900),
  (453, 318232334886, 52650957135690), (409, 288147337106, 11020632121940),
  (347, 576244285870, 10309277421860), (310, 298017326384, 50835032409220),
  (321, 440642025933, 53287235883230), (300, 166936571536, 62567019231240),
  (295, 175924202728, 107360902419080), (282, 311087801399, 53362311835770),
  (263, 55255030187, 42659819087600), (208, 217540496886, 115536115740700),
  (183, 434670868038, 52575881183150), (180, 607777744541, 63989728631400),
  (159, 260843864402, 116247470440780), (117, 470141431381, 9597922721780),
  (107, 548942805114, 43371173787680), (105, 375192101775, 31639186965660),
  (130, 137897716939, 32350541665740), (94, 305797832024, 126556747862640),
  (114, 375170981478, 11731986822020), (95, 54905691533, 116958825140860),
  (88, 326874502411, 21329909543800), (98, 200704668688, 157484580128220)]

/-- `vsop87d_dict.py` 18584-18627. -/
def jupiterB3 : List (ℕ × ℕ × ℕ) := jupiterB3_0

/-- `vsop87d_dict.py` 18629-18640. -/
def jupiterB4_0 : List (ℕ × ℕ × ℕ) := [
  (15050, 452956999637, 52257741809380), (5370, 447427159142, 52969096509460),
  (4456, 543908581047, 53680451209540), (3422, 0, 0),
  (1833, 451807036227, 51546387109300), (1322, 420117611581, 105226838318840),
  (755, 559451554966, 54391805909620), (512, 5803177475, 106649547719000),
  (282, 366807771223, 105938193018920), (147, 356490986181, 104515483618760),
  (142, 569936472988, 711354700080), (112, 116718383135, 1422709400160)]

/-- `vsop87d_dict.py` 18628-18641. -/
def jupiterB4 : List (ℕ × ℕ × ℕ) := jupiterB4_0

/-- `vsop87d_dict.py` 18643-18647. -/
def jupiterB5_0 : List (ℕ × ℕ × ℕ) := [
  (1445, 9198554072, 52257741809380), (368, 874408003, 51546387109300),
  (304, 327902945138, 53680451209540), (129, 33959775247, 52969096509460),
  (95, 129305954542, 54391805909620)]

/-- `vsop87d_dict.py` 18642-18648. -/
def jupiterB5 : List (ℕ × ℕ × ℕ) := jupiterB5_0

/-- `vsop87d_dict.py` 18106-18649 `_planets[("Jupiter", "B")]`. -/
def jupiterB : List (List (ℕ × ℕ × ℕ)) :=
  [jupiterB0, jupiterB1, jupiterB2, jupiterB3, jupiterB4, jupiterB5]

/-- `vsop87d_dict.py` 18652-18751. -/
def jupiterR0_0 : List (ℕ × ℕ × ℕ) := [
  (520887429471, 0, 0), (25209327020, 349108640015, 52969096509460),
  (610599902, 384115365602, 105938193018920), (282029465, 257419879933, 63278373931320),
  (187647391, 207590380082, 52257741809380), (86792941, 71001090609, 41948464387520),
  (72062869, 21465694745, 53680451209540), (65517227, 597995850843, 31639186965660),
  (29134620, 167759243710, 10309277421860), (30135275, 216132058449, 94917560896980),
  (23453209, 354023147303, 73587651353180), (22283710, 419362773546, 158907289528380),
  (23947340, 27457854894, 711354700080), (13032600, 296043055741, 116247470440780),
  (9703346, 190669572402, 20618554843720), (12749004, 271550102862, 105226838318840),
  (9161431, 441352618935, 21329909543800), (7894539, 247907551404, 42659819087600),
  (7057978, 218184753111, 126556747862640), (6137755, 626417542514, 84608283475120),
  (5477093, 565729325169, 63989728631400), (3502519, 56531297394, 106649547719000),
  (4136890, 272219979684, 62567019231240), (4170012, 201605033912, 51546387109300),
  (2499966, 455182055941, 83896928775040), (2616955, 200993967129, 158195934828300),
  (1911876, 85621927419, 41237109687440), (2127644, 612751461750, 74299006053260),
  (1610549, 308867789275, 136866025284500), (1479484, 268026191372, 147886657406440),
  (1230708, 189042979701, 32350541665740), (1216810, 180171561024, 11020632121940),
  (961072, 454876989805, 211876386037840), (885708, 414785948471, 53362311835770),
  (776700, 367696954690, 72876296653100), (998579, 287208940110, 30927832265580),
  (1014959, 138673237666, 45490936652730), (727162, 398824686402, 115536115740700),
  (655289, 279065604219, 168505212250160), (821465, 159342534396, 189835121793960),
  (620798, 482284338962, 95628915597060), (653981, 338150775269, 169216566950240),
  (812036, 594091899141, 90981873305460), (562120, 8095987241, 54391805909620),
  (542221, 28360266386, 52575881183150), (457859, 12722694510, 137577379984580),
  (614784, 227624915604, 94206206196900), (435805, 260272129748, 9597922721780),
  (496066, 553005947761, 38012776796000), (469965, 281896276101, 179525844372100),
  (445003, 14623567024, 1422709400160), (290869, 389339143564, 147175302706360),
  (276627, 252238450687, 200144399215820), (275084, 298863518924, 52650957135690),
  (293875, 204938438861, 19907200143640), (290985, 603131226226, 116958825140860),
  (338342, 279873192583, 104515483618760), (257482, 613395478303, 53287235883230),
  (319013, 134803130803, 221474308759620), (309352, 536855804945, 127268102562720),
  (345804, 156404293688, 49155792945680), (303364, 115407454372, 575338488489680),
  (192325, 91996333387, 159618644228460), (215398, 263572815848, 211165031337760),
  (200738, 237259566683, 125845393162560), (239036, 357397189838, 83503713448730),
  (197073, 592859096863, 45342489381900), (139440, 363960322318, 178814489672020),
  (191373, 628251311870, 98311585891360), (176551, 257669991654, 968359458111640),
  (123567, 226158186345, 231783586181480), (128176, 466585907670, 83185574074960),
  (112430, 85604150812, 43371173787680), (128817, 110567106595, 253113495725280),
  (99390, 450312054049, 51864526483070), (93870, 272553879990, 85319638175200),
  (106481, 581462222290, 22041264243880), (120188, 295156363556, 393215326310),
  (104002, 222221906187, 7478159856730), (81655, 323481337678, 136154670584420),
  (112513, 486216964016, 52820649238630), (79539, 88542246830, 43053034413910),
  (85801, 211458386763, 157484580128220), (85685, 233823884827, 242804218303420),
  (68311, 335727048905, 210453676637680), (69570, 304164697156, 30216477565500),
  (69775, 322402404312, 30534616939270), (69570, 20494979941, 53213864564940),
  (56991, 200204191909, 263422773147140), (77062, 209816000231, 50835032409220),
  (56716, 391743976711, 222185663459700), (58325, 572360355252, 62885158605010),
  (52485, 402485010492, 52724328453980), (63645, 109973563964, 136472809958190),
  (53607, 87425992614, 284752682690940), (59598, 95822471775, 49426624244250),
  (57960, 345779497978, 200855753915900), (41512, 351955526735, 52973914920440),
  (44666, 162313786651, 98460033162190), (44883, 490091959557, 264845482547300)]

/-- `vsop87d_dict.py` 18752-18851. -/
def jupiterR0_1 : List (ℕ × ℕ × ℕ) := [
  (53206, 119800364308, 76025553592000), (44393, 442623747662, 106331408345230),
  (37566, 293021095213, 167793857550080), (41516, 32174409278, 52964278098480),
  (42855, 3093594081, 143950969814920), (45963, 254342106514, 63671589257630),
  (40181, 439381642864, 114824761040620), (38770, 431675565025, 14956319713460),
  (40348, 210140891053, 274443405269080), (48851, 560297777544, 281092146160520),
  (37085, 507828164301, 190546476494040), (43875, 124536971083, 62173803904930),
  (34005, 309360167248, 242092863603340), (36782, 84232174637, 53065417294110),
  (31139, 535811251334, 148598012106520), (39295, 470800489067, 56904784100980),
  (39700, 246163878814, 35574874557180), (31527, 619284070863, 318139373770),
  (28399, 248456666067, 51939602435610), (32432, 273281750275, 60447256366190),
  (27119, 392341697086, 232494940881560), (26753, 174975198417, 295061960112800),
  (28986, 183535862643, 189123767093880), (26493, 60380196895, 105544977692610),
  (33525, 76068430639, 64382943957710), (26568, 103594610835, 40525754987360),
  (25534, 346320665375, 45884151979040), (24421, 88181836930, 42341679713830),
  (32949, 318597137308, 52872775724810), (22456, 43129919683, 107360902419080),
  (21599, 141820425091, 54073666535850), (25673, 52358194760, 51153171782990),
  (21115, 308023522766, 62960234557550), (22713, 65234613144, 316391869656600),
  (19189, 516589014963, 63596513305090), (26042, 133629471285, 33061896365820),
  (18263, 359973446951, 74692221379570), (18210, 266819439927, 199433044515740),
  (19724, 413552133321, 146463948006280), (19480, 185656428109, 306082592234740),
  (23927, 499826361784, 128994650101460), (21886, 591718683551, 180237199072180),
  (17482, 282161612542, 273732050569000), (16608, 567394889755, 40843894361130),
  (22892, 526731352093, 67214061522840), (18349, 189869734949, 102124889455140),
  (19123, 365882402977, 41555249061210), (15735, 334772676006, 105620053645150),
  (16373, 18094878053, 169927921650320), (18899, 369120638874, 8886568021700),
  (18655, 197327300097, 3813303563780), (15542, 382204881010, 72164941953020),
  (16780, 190976657921, 21723124870110), (15313, 105907174619, 11413847448250),
  (15190, 132317039042, 11731986822020), (15080, 374469077216, 264134127847220),
  (19836, 273184571324, 3935687591520), (14708, 167270454473, 52916970023280),
  (14036, 354305270022, 14244965013380), (12931, 148829749349, 326701147078460),
  (14924, 132546085940, 49033408917940), (14753, 464530618027, 628307584999140),
  (14672, 80451954754, 522369391980220), (12085, 367072510553, 75010360753340),
  (11954, 297127390765, 50531194270640), (14650, 216792930250, 53021222995640),
  (11869, 166551754962, 220762954059540), (12273, 20690014405, 106256332392690),
  (11460, 111906683214, 56193429400900), (11083, 322049096074, 53510759106600),
  (11567, 522625628971, 52406189080210), (11161, 382945634036, 7626607127560),
  (10918, 127796962818, 212587740737920), (12685, 396848605476, 253824850425360),
  (11230, 323092119889, 42266603761290), (12645, 73670428580, 90833426034630),
  (11330, 556127247007, 53117543780290), (9509, 500507284204, 59735901666110),
  (10291, 384159025239, 178103134971940), (10762, 491380719453, 52502509864860),
  (11786, 511863653538, 68547393735270), (11980, 172470898635, 91130320576290),
  (8937, 240338241992, 231072231481400), (9253, 257670338148, 305371237534660),
  (9488, 295089828501, 138288734684660), (9889, 43758517388, 348031056622260),
  (8781, 366562388594, 73980866679490), (8664, 270398612383, 52677020378780),
  (9505, 161249870019, 337721779200400), (11540, 159520481029, 147467378837040),
  (9533, 35468711552, 151280682400820), (9980, 480984684596, 55800214074590),
  (9014, 121458362718, 41630325013750), (7969, 8480602718, 52894020556920),
  (8668, 529060005706, 94524345570670), (7851, 146751861875, 96340270297140),
  (8611, 113232641062, 53261172640140), (7838, 626933498027, 64701083331480),
  (7581, 290608705954, 53388375078860), (8583, 606634530166, 1021328554621100)]

/-- `vsop87d_dict.py` 18852-18951. -/
def jupiterR0_2 : List (ℕ × ℕ × ℕ) := [
  (10198, 248743123636, 181963746610920), (8536, 222700701790, 915390361602180),
  (9759, 615593336218, 59342686339800), (7968, 375535355212, 53044172462000),
  (7142, 358836120327, 295773314812880), (7122, 11970048938, 22434479570190),
  (8731, 75302913970, 96022130923370), (7063, 216793037690, 72483081326790),
  (7263, 229499675875, 52012973753900), (6418, 125058991868, 358340334044120),
  (8270, 124806288317, 49575071515080), (6483, 474567772640, 20225339517410),
  (7197, 384169279666, 61855664531160), (8146, 73147060302, 23056457082540),
  (6165, 550124418381, 1104570026390), (7946, 207754951174, 95310776223290),
  (7675, 92400307662, 52549817940060), (6210, 145641362115, 48322054217860),
  (7359, 31355650764, 37864329525170), (6707, 292071167098, 103804128918680),
  (7143, 18218134889, 73194436026870), (7309, 627084533477, 2134064100240),
  (6135, 267651237303, 31245971639350), (5558, 383419160288, 53435683154060),
  (5344, 525294750019, 104833622992530), (7504, 74281415471, 45761767951300),
  (5335, 623059924424, 55103160609700), (5613, 151210605952, 52427433912320),
  (5284, 218579185671, 28096714700450), (5475, 595864753605, 53998590583310),
  (5056, 37387972537, 52953090640020), (6202, 553813122743, 244768055480),
  (5490, 597692444199, 22752618943960), (6266, 76632858238, 93812990870590),
  (5750, 213496323512, 19195845443560), (5218, 469335266854, 56071045373160),
  (5480, 521157595558, 105789745748090), (5738, 34249718209, 53591074021810),
  (4816, 151326236835, 252402141025200), (5056, 346671669992, 52985102378900),
  (4710, 227813830550, 337010424500320), (5228, 361776977584, 209742321937600),
  (4878, 139829798223, 369360966166060), (5727, 480120381106, 59884348936940),
  (5707, 394177950323, 285464037391020), (4988, 487244187719, 148447270830),
  (5424, 353268613904, 45639383923560), (4288, 484438067847, 7084944530420),
  (5944, 379180483544, 2555821217647960), (4195, 209136830994, 262711418447060),
  (4582, 561707254513, 243515573003500), (4268, 620250525415, 77523338944700),
  (4521, 20049967962, 9204707395470), (5405, 466492781581, 83355266177900),
  (5607, 330226645638, 53532003938710), (4171, 314873010832, 94498282327580),
  (4108, 584489743779, 44082528487760), (4367, 468363584557, 32743756992050),
  (4033, 330883782817, 327412501778540), (4292, 20604269202, 379670243587920),
  (4270, 98941708997, 38724131496080), (4259, 321120589971, 69651963761660),
  (4673, 196606729969, 10702492748170), (4031, 462854606236, 275154759969160),
  (5115, 266416451377, 121516490244730), (4181, 474527698816, 98853248488500),
  (4374, 150010561403, 189441906467650), (3803, 359911687954, 43764389113990),
  (3761, 396903199782, 73269511979410), (3620, 157847427805, 38161224066830),
  (3490, 63097592112, 52990341341570), (4019, 257664165720, 91693228005540),
  (4133, 478417930217, 82474219374880), (4411, 313179382423, 63033605875840),
  (4099, 363702212253, 81065811209910), (3704, 617243801274, 53776771994190),
  (4124, 214248285449, 21011770170030), (3490, 320962050417, 52947851677350),
  (3281, 153106243317, 54785021235930), (3554, 603787799174, 73905790726950),
  (4101, 600406226999, 90270518605380), (3267, 349354065789, 116640685767090),
  (3286, 255966870530, 94599421523210), (4041, 478735413707, 85001498801430),
  (4304, 11406117717, 174485586754190), (4043, 520417093600, 63523141986800),
  (3115, 461986265585, 95235700270750), (3016, 95126220905, 389979521009780),
  (3017, 259699501992, 63283192342300), (3219, 183594791142, 1815924726470),
  (3203, 612597544496, 1029494073850), (3220, 614213423140, 115854255114470),
  (3000, 569509924353, 63273555520340), (3226, 559910267099, 60840471692500),
  (3118, 564998934505, 9916062095550), (3745, 208111521615, 28245161971280),
  (2837, 460175594220, 24554242435240), (3093, 602049413961, 63374694715970),
  (3120, 229047945342, 63182053146670), (2662, 369016679729, 88543971066640)]

/-- `vsop87d_dict.py` 18952-19051. -/
def jupiterR0_3 : List (ℕ × ℕ × ℕ) := [
  (3150, 179784999553, 52161421024730), (2822, 314927418161, 29505122865420),
  (2615, 20732170653, 3542472265210), (2971, 128795094653, 102395720753710),
  (2571, 201817133502, 151429129671650), (2592, 48790221200, 19513984817330),
  (3263, 238820607343, 83652160719560), (2501, 21653750027, 46595506679120),
  (2451, 558559489768, 54466881862160), (2535, 144414086617, 46053844081980),
  (2666, 330350145485, 241381508903260), (2412, 436756580310, 105693424963440),
  (2452, 453818816565, 51471311156760), (3239, 117022488774, 17787437278590),
  (3218, 60551913257, 106182961074400), (2408, 65423523810, 52354062594030),
  (2299, 215247752560, 31957326339430), (2791, 271505085086, 61069233878540),
  (2729, 177685979153, 25265597135320), (2666, 377750458842, 317103224356680),
  (2303, 36676453766, 196920066324380), (2664, 9674841214, 56511568774670),
  (2312, 207210502831, 368649611465980), (2680, 494445888050, 159300504854690),
  (2193, 55645982205, 222897018159780), (2526, 107528597373, 1203646073488820),
  (2778, 148379350517, 44779581952650), (2235, 595475282699, 615153388830500),
  (2759, 463976153480, 46202291352810), (2175, 453588570240, 50137978944330),
  (2323, 593670041006, 61144309831080), (2384, 281746622971, 334061242669980),
  (2087, 310716079675, 104908698945070), (1994, 202500860064, 105886066532740),
  (2199, 220937490997, 126949963188950), (2705, 197665276677, 41529185818120),
  (2787, 131053438756, 104122268292450), (2003, 466904374443, 67925416222920),
  (1962, 182999730674, 294350605412720), (2289, 296480800939, 6915252427480),
  (2192, 447837196209, 20936694217490), (2020, 4621364490, 411309430553580),
  (2082, 111203059170, 401000153131720), (1991, 320108648275, 359051688744200),
  (1900, 332227077969, 42193232443000), (2193, 282218305362, 29201284726840),
  (2288, 194695631885, 127979457262800), (1843, 523293634337, 1497785352700),
  (1932, 546684252030, 228123049651060), (2177, 293031976617, 42904587143080),
  (2125, 6224847826, 2437902238820), (2464, 539581078430, 126163532536330),
  (1938, 379908004671, 105943011429900), (2029, 395461157815, 77130123618390),
  (1841, 474905354737, 7871375183040), (1922, 221862085389, 9991138048090),
  (1836, 575449805175, 62322251175760), (2145, 387052575546, 45194042111070),
  (1782, 40860352236, 75403576079650), (1784, 149468287576, 52995159752550),
  (1842, 349726261337, 135443315884340), (1748, 348730020953, 52262560220360),
  (1816, 124334711210, 41703696332040), (1752, 115500390019, 106034513803570),
  (1729, 269831073799, 64234496686880), (1985, 199916658759, 93494851496820),
  (1828, 544095029767, 120183158032300), (2158, 345672748590, 82792358748650),
  (1959, 106033047373, 3394024994380), (1751, 313572498964, 38405992122310),
  (1781, 502895146997, 109873880610440), (2074, 318582065441, 136621257229020),
  (1757, 502778552877, 58631331639720), (2045, 308816627459, 53584130424890),
  (2273, 517998505813, 317814579056760), (1617, 316674916201, 6766805156650),
  (1627, 610603469594, 43201481684740), (1930, 163968957659, 541662597140),
  (1741, 99408274736, 125452177836250), (1607, 565498642076, 116565609814550),
  (1676, 306138410273, 113416352875650), (1821, 305183555090, 56782400073240),
  (1677, 309175084930, 125134038462480), (1994, 252023134712, 105990319505100),
  (2204, 615376698510, 56363121503840), (1692, 419142612803, 10627416795630),
  (1906, 558417395051, 3224332891440), (2206, 175883974012, 115142900414390),
  (1552, 304262360186, 38554439393140), (1508, 42002830727, 31321047591890),
  (1494, 143672345922, 284041327990860), (1678, 217255433434, 30683064210100),
  (1511, 444377608685, 39510562148700), (1958, 5215107058, 76174000862830),
  (1760, 127045286501, 117352040467170), (1463, 607810373103, 96320784650),
  (1498, 279408561759, 27703499374140), (1636, 26199351490, 52252923398400),
  (1507, 48961801593, 421618707975440), (1530, 342953827550, 115929331067010)]

/-- `vsop87d_dict.py` 19052-19151. -/
def jupiterR0_4 : List (ℕ × ℕ × ℕ) := [
  (1744, 239637837261, 20300415469950), (1569, 255719070621, 419278569400),
  (1576, 345039607104, 105841872234270), (1466, 224427539934, 155093985964600),
  (1784, 234591354953, 52943033266370), (1939, 473685428610, 306793946934820),
  (1938, 60126164334, 105933374607940), (1523, 298744673443, 273020695868920),
  (1834, 378099298791, 42096911658350), (1372, 353997115825, 562907429250),
  (1361, 45533257707, 41852143602870), (1833, 512743628215, 157802719501990),
  (1839, 424616044210, 98163138620530), (1567, 332429870195, 53239927808030),
  (1340, 194668282270, 52841894070740), (1422, 183191577465, 400288798431640),
  (1745, 576913240451, 49007345674850), (1437, 419470227783, 42044785172170),
  (1419, 74849005330, 63226247445140), (1447, 565611888743, 37301422095920),
  (1578, 390273683089, 60298809095360), (1385, 388479835656, 41943645976540),
  (1352, 81697905853, 158514074202070), (1399, 124785452243, 63330500417500),
  (1297, 557914023189, 127661317889030), (1491, 166541781223, 265556837247380),
  (1252, 72155670765, 17394221952280), (1658, 560924662850, 36286229257260),
  (1606, 395301396173, 227454683263650), (1213, 455264289565, 36679444583570),
  (1521, 55773831071, 159225428902150), (1220, 363029788040, 49744763618020),
  (1215, 442854185903, 53138788612400), (1549, 573765962068, 32032402291970),
  (1480, 429779032931, 30386169668440), (1507, 227998567874, 75877106321170),
  (1212, 338335836048, 53685269620520), (1245, 421639959154, 466586644600),
  (1507, 352136655355, 77400954916960), (1481, 306156044618, 158589150154610),
  (1462, 230628702634, 136324362687360), (1180, 352708055024, 106479855616060),
  (1193, 588284733845, 106086640289750), (1398, 499456521692, 84290144101350),
  (1406, 153799746944, 102002505427400), (1367, 410254739443, 79961241183520),
  (1336, 189387272380, 53096298948180), (1238, 362226383331, 348742411322340),
  (1306, 339985119727, 53925219265020), (1156, 77127511567, 160329998928540),
  (1482, 48451915093, 49304240216510), (1247, 564344659992, 47928838891550),
  (1195, 239909893341, 56118353448360), (1106, 89453807282, 292076130680),
  (1227, 276231244946, 29912639426920), (1128, 472319873338, 12443341522100),
  (1086, 566180289525, 105375285589670), (1329, 16664094530, 53675632798560),
  (1082, 451407359350, 52825467649610), (1105, 193890691771, 24431858407500),
  (1446, 65096230619, 109162525910360), (1071, 467974963103, 52182665856840),
  (1413, 472936311016, 114113406340540), (1086, 288721124443, 126238608488870),
  (1254, 574156595137, 52799404406520), (1082, 560975006771, 53112725369310),
  (1148, 327410230525, 103500290780100), (1224, 368807537150, 8175213321620),
  (1072, 48068438564, 105863117066380), (1036, 168789163831, 107042763045310),
  (1052, 472763208332, 91375088631770), (1166, 497812626679, 45097721326420),
  (1042, 290894542321, 390690875709860), (997, 165967703856, 325989792378380),
  (1113, 306502453809, 148279872732750), (991, 91568114148, 57616138801060),
  (987, 91349590742, 233206295581640), (1003, 617381204883, 39117346822390),
  (1087, 319260020877, 15104766984290), (987, 248065918834, 191257831194120),
  (975, 155458771092, 53628324723360), (1193, 219383228000, 52309868295560),
  (979, 328693620660, 137970595310890), (963, 229845109892, 146782087380050),
  (1279, 473978455573, 60054041039880), (1269, 177171706595, 512060114558360),
  (938, 313636271584, 137259240610810), (956, 94045126791, 42977958461370),
  (1130, 487259620358, 87439401040250), (1044, 352819283674, 53058473697190),
  (1244, 80634178279, 41953282798500), (914, 434324212455, 112704998175570),
  (1095, 317513475763, 668122485339960), (926, 553099018797, 53755527162080),
  (1025, 608315999637, 46988722005430), (928, 264064849636, 3101948863700),
  (887, 553922649066, 49867147645760), (1153, 520213407651, 55406998748280),
  (976, 426047885490, 80672595883600), (871, 579751110150, 59465070367540)]

/-- `vsop87d_dict.py` 19152-19251. -/
def jupiterR0_5 : List (ℕ × ℕ × ℕ) := [
  (1044, 31244551729, 52879719321730), (911, 94039205468, 33773251065900),
  (1197, 312884590029, 196623171782720), (930, 288178471518, 105646116888240),
  (1052, 169484089706, 48444438245600), (862, 67309397482, 2042657109242200),
  (1152, 116751621652, 148991227432830), (847, 325831322825, 106357471588320),
  (884, 71487680084, 204249778910280), (888, 538714907441, 562184292321040),
  (1137, 402029739425, 167007426897460), (844, 331846798590, 81214258480740),
  (860, 478175008217, 53091480537200), (835, 363117401608, 45172797278960),
  (931, 227352189963, 10064509366380), (939, 351238251326, 52347118997110),
  (860, 534207357904, 52846712481720), (875, 87775537110, 432639340097380),
  (961, 569327275886, 49819839570560), (966, 625512226434, 70045179087970),
  (842, 320535945596, 167082502850000), (808, 109148925587, 68318631549230),
  (810, 547935192896, 52554636351040), (855, 606969867736, 44631134681820),
  (989, 155623875216, 149309366806600), (837, 149510080792, 102544168024540),
  (974, 367667471757, 2556532572348040), (788, 51622458293, 52698265210890),
  (820, 186002542644, 62986297800640), (813, 45441968195, 469400295470760),
  (953, 58786779132, 62736711334180), (908, 282093327912, 304659882834580),
  (912, 269124310451, 94672792841500), (820, 414947931572, 188412412393800),
  (948, 77931728039, 2555109862947879), (844, 976249584, 62859095361920),
  (910, 99542530366, 576049843189760), (844, 22630964490, 112311782849260),
  (924, 441952345708, 574627133789600), (967, 320618313117, 905081084180320),
  (800, 10663079153, 453257894941100), (748, 301376405927, 548175455838080),
  (752, 582360472890, 70193626358800), (771, 12101982692, 63570450062000),
  (725, 281220410314, 359763043444280), (944, 40327408174, 114038330388000),
  (726, 528930472464, 130492435454160), (994, 516391370100, 1031637832042960),
  (890, 410819809692, 106013268971460), (962, 148376004549, 106230269149600),
  (883, 526813169286, 154260247236780), (916, 602908368648, 786430652620),
  (725, 218773773010, 117670179840940), (808, 581725174908, 108769310584050),
  (757, 77440414330, 97748678462110), (838, 381585420192, 98608480433020),
  (888, 189634795578, 70756533788050), (854, 547701506544, 281803500860600),
  (796, 108794807212, 98730864460760), (856, 258042139486, 280380791460440),
  (708, 109492310353, 24872381809010), (811, 323726191865, 12125202148330),
  (727, 156150632966, 431927985397300), (687, 265457835371, 156773225428140),
  (675, 178690909614, 10314095832840), (853, 474476428852, 95162328952460),
  (832, 514362789810, 105471606374320), (846, 147557828604, 89877303279070),
  (701, 172139817505, 523080746680300), (863, 398700238575, 68695841006100),
  (703, 289202252444, 6373589830340), (673, 611618580510, 73832419408660),
  (806, 464475158248, 53383556667880), (670, 267625974048, 101291150727320),
  (668, 493815253692, 517247623572500), (818, 141973280302, 58009354127370),
  (652, 341422919445, 65094298657790), (643, 246566726278, 104982070263360),
  (859, 250530106631, 78234693644780), (662, 413533996643, 73342883297700),
  (812, 130325352179, 105518914449520), (638, 421760246824, 106404779663520),
  (637, 613121700151, 475299159184980), (636, 83411828974, 71149749114360),
  (642, 186741704507, 105396530421780), (795, 454081089118, 145752593306200),
  (783, 437652961667, 10554045477340), (640, 544039474349, 63203297978780),
  (651, 502431301146, 52804643369190), (686, 27079898498, 1177941344680),
  (644, 536935176134, 83578789401270), (639, 186699974431, 617286952877200),
  (630, 286895754523, 63353449883860), (826, 146026926041, 219976523406920),
  (687, 381221717134, 7329712585900), (697, 418082589322, 169692102940),
  (788, 21278801649, 31394418910180), (686, 251807576494, 63841281360570),
  (847, 556263749391, 442948617519240), (673, 487494072856, 10304459010880)]

/-- `vsop87d_dict.py` 19252-19351. -/
def jupiterR0_6 : List (ℕ × ℕ × ℕ) := [
  (663, 480713895807, 99171387862270), (614, 387231597482, 76736908292080),
  (666, 571697262323, 66109491496450), (681, 233844767741, 50123677709140),
  (597, 303921014345, 695348830640), (777, 308786050361, 44157604440300),
  (588, 8236113246, 416431198961300), (693, 466190836234, 338433133900480),
  (810, 197701084490, 86030992875280), (602, 556403449542, 158758842257550),
  (622, 611554348965, 706536289100), (592, 329013906024, 1010307922499160),
  (692, 610931942233, 1274262129330), (597, 613204711801, 727360569520),
  (594, 258839673551, 84926422848890), (728, 273732195088, 615033915430),
  (602, 528816527514, 94912742486000), (568, 175508433865, 107754117745390),
  (575, 450676079721, 123014275597430), (588, 65827893998, 464278527063040),
  (561, 387565914360, 13533610313300), (558, 336094471852, 2449883024629040),
  (557, 345629457197, 1989688012732740), (558, 117103892689, 357628979344040),
  (574, 519235074140, 10405598206510), (560, 357141429379, 533390024102160),
  (555, 18349908409, 51242548970720), (571, 83070148820, 157091364801910),
  (632, 367893818442, 106501100448170), (744, 233083237537, 62025356634100),
  (540, 515775909675, 175153953141600), (592, 307238123875, 144662324515000),
  (537, 152803865425, 809452168583260), (550, 550701003577, 143239615114840),
  (546, 234388967045, 94922379307960), (534, 304076654796, 716173111060),
  (619, 607865159203, 4647042291600), (562, 96641974928, 143802522544090),
  (531, 106695547390, 10017201291180), (599, 359295739143, 114431545714310),
  (526, 351641923371, 75075952540), (564, 72677136494, 105922187149480),
  (537, 572603965787, 51322863885930), (630, 231183143900, 272945619916380),
  (530, 499510636441, 926410993724120), (649, 95666735852, 92086443331850),
  (547, 118801926149, 1150676976979360), (516, 328562070858, 73491330568530),
  (567, 513926871155, 28808069400530), (538, 28159637680, 15349535039770),
  (718, 48326672359, 84215068148810), (526, 439778401928, 54615329132990),
  (695, 244235086902, 65716276170140), (697, 499042365686, 1253017297220),
  (519, 627847163164, 5980374504030), (504, 258550284000, 537866178416220),
  (496, 243659402827, 99022940591440), (617, 573284985700, 74543774108740),
  (519, 310157097770, 916101716302260), (654, 131181453784, 87832616366560),
  (619, 371554817226, 209030967237520), (500, 428937439066, 521658037280140),
  (621, 398893673383, 40992341631960), (685, 195310431695, 315680514956520),
  (552, 281774132958, 34470304530790), (551, 191969778405, 11338771495710),
  (682, 87321578326, 606977675455340), (651, 509951064975, 53133549649730),
  (537, 367357440226, 60595703637020), (525, 74584814988, 73683972137830),
  (505, 312494814307, 147568518032670), (622, 300013939606, 234932843120380),
  (644, 300156986335, 29823262239190), (564, 381960833949, 105954198888360),
  (468, 350348554992, 484185727206680), (491, 128535573072, 24723934538180),
  (458, 45056377876, 106560170531270), (543, 239704308320, 969070812811720),
  (459, 529870259698, 147493442080130), (483, 363649121244, 13140394986990),
  (632, 275028345792, 33455111692130), (483, 42979609421, 73582832942200),
  (540, 54791737146, 5164611531805379), (531, 30026207053, 91278767847120),
  (449, 302583472996, 590123920225600), (544, 298747240952, 422330062675520),
  (557, 583542572008, 967648103411560), (501, 3408180117, 108072257119160),
  (517, 440400852026, 254536205125440), (481, 363292807076, 558484733259940),
  (557, 611443978190, 97600231191280), (481, 341035583659, 380381598288000),
  (622, 229597570837, 999998645077300), (454, 288584538455, 198721689815660),
  (439, 483198101064, 5040257617910), (475, 269994471394, 49181856188770),
  (618, 72471290082, 129143097372290), (503, 13449993622, 201567108615980),
  (551, 213418546604, 144099417085750), (595, 378181802545, 638616862421000)]

/-- `vsop87d_dict.py` 19352-19396. -/
def jupiterR0_7 : List (ℕ × ℕ × ℕ) := [
  (434, 264411689486, 74840668650400), (592, 32587740408, 73736098624010),
  (490, 237988828800, 222578878786010), (439, 133582802018, 99564603188580),
  (543, 205067702505, 90684978763800), (466, 243707405011, 336299069800240),
  (481, 232223226419, 135761455258110), (566, 59740900184, 35033211960040),
  (429, 246287580628, 391402230409940), (429, 101299906509, 433350694797460),
  (425, 167255823369, 14807872442630), (412, 329630633921, 732599532190),
  (508, 116158524676, 956122755560), (524, 502562926120, 109040141882620),
  (409, 580053072411, 914679006902100), (497, 1579913593, 106967687092770),
  (548, 603429743373, 936720271145980), (433, 593688350840, 168823351623930),
  (424, 418150111530, 55013783421970), (401, 11519846139, 97051624997220),
  (503, 528212300854, 66820846196530), (555, 100328633255, 14122580985640),
  (404, 248633976473, 51965665678700), (441, 606185501734, 2512978191360),
  (412, 587495245826, 690109867970), (478, 71264950607, 109480665284130),
  (446, 271248183031, 3149256938900), (404, 549462012486, 44793883187840),
  (391, 126105612700, 807675484730), (463, 193535321271, 627596230299060),
  (507, 361089992782, 54695644048200), (402, 586200127054, 92783496796740),
  (481, 621043578332, 68398946464440), (483, 502142924458, 85712853501510),
  (444, 84873092377, 137184164658270), (391, 281753436573, 579814642803740),
  (395, 22367886581, 5111642435295920), (378, 603765733432, 126874887236410),
  (471, 624506463249, 94646729598410), (405, 57785207581, 10728555991260),
  (371, 615750793727, 50924409596950), (370, 490330687618, 143654075273260),
  (448, 476565111029, 28414854074220), (474, 71146352197, 210846891963990),
  (509, 553328407404, 112853445446400)]

/-- `vsop87d_dict.py` 18651-19397. -/
def jupiterR0 : List (ℕ × ℕ × ℕ) := List.flatten [
  jupiterR0_0, jupiterR0_1, jupiterR0_2, jupiterR0_3, jupiterR0_4, jupiterR0_5, jupiterR0_6, jupiterR0_7]

/-- `vsop87d_dict.py` 19399-19498. -/
def jupiterR1_0 : List (ℕ × ℕ × ℕ) := [
  (1271801596, 264937511122, 52969096509460), (61661771, 300076251018, 105938193018920),
  (53443592, 389717644226, 52257741809380), (31185167, 488276663526, 53680451209540),
  (41390257, 0, 0), (11847190, 241329588176, 41948464387520),
  (9166360, 475979408587, 711354700080), (3175763, 279297987071, 10309277421860),
  (3203446, 521083285476, 73587651353180), (3403605, 334688537997, 158907289528380),
  (2600003, 363435101622, 20618554843720), (2412207, 146947308304, 42659819087600),
  (2806064, 374223693580, 51546387109300), (2676575, 433052878699, 105226838318840),
  (2100507, 392762682306, 63989728631400), (1646182, 530953510947, 106649547719000),
  (1641257, 441628669824, 62567019231240), (1049866, 316113622955, 21329909543800),
  (1024802, 255432643018, 41237109687440), (740996, 217094630558, 116247470440780),
  (806404, 267750801380, 63278373931320), (676928, 624953479790, 83896928775040),
  (468895, 470973463481, 54391805909620), (444683, 40281181402, 32350541665740),
  (567076, 457655414712, 74299006053260), (415894, 536836018215, 72876296653100),
  (484689, 246882793186, 94917560896980), (337555, 316781951120, 95628915597060),
  (401738, 460528841541, 30927832265580), (347378, 468148808722, 1422709400160),
  (260753, 534290306101, 84608283475120), (220084, 484210964963, 136866025284500),
  (203217, 559995425432, 115536115740700), (246603, 392313823537, 94206206196900),
  (183504, 426526769703, 9597922721780), (180134, 440165491159, 53287235883230),
  (197134, 370551461394, 211876386037840), (196005, 375877587139, 19907200143640),
  (200190, 443888814441, 104515483618760), (170225, 484647488867, 52650957135690),
  (146335, 612958365535, 53362311835770), (133483, 132245735855, 11020632121940),
  (132076, 451187950811, 52575881183150), (123851, 204290370696, 147886657406440),
  (121861, 440581788491, 116958825140860), (115313, 446741278152, 158195934828300),
  (98527, 572833991647, 159618644228460), (91608, 452965592121, 168505212250160),
  (110638, 362504147403, 127268102562720), (80536, 411311699583, 125845393162560),
  (79552, 271898473954, 169216566950240), (100164, 524693885858, 126556747862640),
  (77854, 556722651753, 147175302706360), (85766, 7906707372, 83185574074960),
  (82132, 380763015979, 50835032409220), (55319, 35180851191, 31639186965660),
  (52338, 553074272117, 43371173787680), (55769, 475141241141, 30216477565500),
  (50597, 485603161770, 137577379984580), (43554, 494441642712, 136154670584420),
  (42172, 122404278447, 85319638175200), (37695, 426767539209, 200144399215820),
  (49395, 401422828967, 22041264243880), (38263, 533025236797, 178814489672020),
  (35611, 176205571128, 179525844372100), (36296, 384995284393, 157484580128220),
  (29332, 516619257786, 393215326310), (25180, 433777727362, 51939602435610),
  (24778, 272907897410, 40525754987360), (27025, 609669947903, 114824761040620),
  (22604, 19173890105, 38012776796000), (20499, 432881495378, 318139373770),
  (19925, 462967500111, 167793857550080), (19528, 510596326232, 107360902419080),
  (18427, 376522178300, 148598012106520), (18869, 505259402407, 210453676637680),
  (17031, 401843356903, 231783586181480), (16671, 542931676507, 8886568021700),
  (15337, 292700926091, 200855753915900), (14499, 363339836845, 62885158605010),
  (14575, 550832843322, 72164941953020), (13728, 487623389735, 62960234557550),
  (18481, 603032762264, 33061896365820), (13499, 138539534821, 51864526483070),
  (15740, 293038271684, 190546476494040), (12459, 158587053146, 211165031337760),
  (12272, 337671053917, 63596513305090), (11836, 408486322993, 264845482547300),
  (11166, 462623267608, 63671589257630), (14348, 274177797727, 222185663459700),
  (11221, 355311861205, 189123767093880), (13121, 583845065644, 146463948006280),
  (11351, 257606886230, 51153171782990), (10487, 49850799841, 45342489381900),
  (9728, 438837468002, 199433044515740), (10131, 276432756215, 42341679713830),
  (8620, 516374493158, 105620053645150), (8952, 479407952752, 242092863603340),
  (8126, 372977106954, 263422773147140), (8078, 129246272894, 242804218303420)]

/-- `vsop87d_dict.py` 19499-19598. -/
def jupiterR1_1 : List (ℕ × ℕ × ℕ) := [
  (8867, 185684753622, 75010360753340), (8912, 480973516711, 106256332392690),
  (8552, 453818617984, 2134064100240), (9468, 433472161983, 180237199072180),
  (6904, 596616555709, 54073666535850), (7293, 497763580465, 169927921650320),
  (7083, 499096728816, 105544977692610), (7226, 497823884383, 189835121793960),
  (6464, 139173466879, 42266603761290), (6214, 446490158256, 55103160609700),
  (6794, 290878831415, 232494940881560), (6173, 365617162985, 62173803904930),
  (6243, 613691919694, 212587740737920), (5936, 258312235120, 56904784100980),
  (6504, 456908431757, 103804128918680), (7305, 302062127734, 41630325013750),
  (6598, 555348005731, 178103134971940), (5133, 621646917980, 96340270297140),
  (5876, 423153077453, 53998590583310), (5119, 6942832171, 106331408345230),
  (5460, 491084384602, 83503713448730), (4989, 135153694680, 138288734684660),
  (5224, 18468411116, 11731986822020), (6187, 387193497099, 19195845443560),
  (4681, 461057119508, 64382943957710), (4627, 334644534691, 220762954059540),
  (4526, 407729737127, 231072231481400), (4718, 455578336947, 273732050569000),
  (4471, 147603161897, 40843894361130), (4073, 113014903180, 41555249061210),
  (5476, 563198569698, 61855664531160), (4034, 409631702747, 43053034413910),
  (4304, 460536378943, 64701083331480), (3765, 342751259825, 295061960112800),
  (4559, 423723998745, 22752618943960), (3695, 103127824978, 274443405269080),
  (3667, 412268925541, 44082528487760), (3677, 219480200527, 53435683154060),
  (3818, 114800596289, 7478159856730), (4221, 237721579949, 253824850425360),
  (3488, 533792561596, 45884151979040), (3437, 426164443643, 1029494073850),
  (4394, 18808423412, 82474219374880), (3339, 485708402591, 29505122865420),
  (3329, 550043586719, 73980866679490), (3623, 464011531952, 221474308759620),
  (3185, 269708590442, 56193429400900), (3421, 338512615384, 14956319713460),
  (3442, 434217280083, 30534616939270), (3580, 529481665335, 209742321937600),
  (3401, 274761862893, 264134127847220), (2901, 91012525424, 98460033162190),
  (3566, 163400343968, 52502509864860), (2869, 131799241974, 61144309831080),
  (2635, 525517910535, 53213864564940), (2683, 424641945773, 305371237534660),
  (2614, 317862099921, 52724328453980), (2251, 421598247360, 73905790726950),
  (2268, 552248110560, 52427433912320), (2372, 419741177512, 21723124870110),
  (2623, 582647427958, 73269511979410), (2666, 392538056951, 21011770170030),
  (2036, 484043420813, 104908698945070), (2441, 263840901843, 76025553592000),
  (2095, 576269812349, 52964278098480), (2021, 381308146017, 262711418447060),
  (2089, 418463193132, 94599421523210), (2305, 161220665690, 60447256366190),
  (1969, 537427735384, 14244965013380), (1923, 475088270631, 53510759106600),
  (1955, 549000238006, 143950969814920), (1877, 326978877187, 326701147078460),
  (2286, 293885172004, 7626607127560), (2074, 585386852879, 53261172640140),
  (2121, 392430797099, 243515573003500), (1807, 317208959472, 252402141025200),
  (1712, 402986641257, 73194436026870), (2119, 41049593984, 127979457262800),
  (1660, 234370903423, 52872775724810), (1655, 78809717175, 306082592234740),
  (1729, 426127896267, 72483081326790), (2060, 504785330873, 241381508903260),
  (2095, 267732367556, 52973914920440), (1933, 249162437046, 295773314812880),
  (1898, 271948262975, 95235700270750), (1634, 298113068812, 94524345570670),
  (1582, 584373095005, 54785021235930), (1662, 27359627181, 45490936652730),
  (1595, 118530167095, 3813303563780), (1550, 64264572959, 31245971639350),
  (1525, 408789824989, 115854255114470), (1542, 112520322326, 102124889455140),
  (1539, 37324921979, 31957326339430), (1628, 524285773388, 135443315884340),
  (1897, 379973291113, 95310776223290), (1440, 437872256685, 317814579056760),
  (1439, 426513521887, 52677020378780), (1557, 543779802371, 8175213321620),
  (1656, 609667089740, 53065417294110), (1548, 348799710267, 93494851496820)]

/-- `vsop87d_dict.py` 19599-19698. -/
def jupiterR1_2 : List (ℕ × ℕ × ℕ) := [
  (1772, 582549274759, 90981873305460), (1615, 145018725033, 90270518605380),
  (1387, 252840497309, 53044172462000), (1574, 189565809136, 43764389113990),
  (1459, 332546061506, 104122268292450), (1377, 10015418633, 49033408917940),
  (1460, 400706825185, 337010424500320), (1605, 427993020192, 253113495725280),
  (1707, 628253681644, 1815924726470), (1802, 223019296374, 285464037391020),
  (1390, 376737324192, 116565609814550), (1498, 17285954362, 114113406340540),
  (1401, 481225317549, 125134038462480), (1244, 283383980283, 12443341522100),
  (1320, 580675430384, 38724131496080), (1329, 88314574243, 91693228005540),
  (1558, 617808619637, 98311585891360), (1243, 29239666059, 59735901666110),
  (1541, 351095241498, 275154759969160), (1482, 83066678204, 52916970023280),
  (1149, 391142023857, 9991138048090), (1114, 353339637290, 48322054217860),
  (1195, 416301075999, 20300415469950), (1100, 174769285223, 49744763618020),
  (1458, 519315120878, 159225428902150), (1123, 145270581179, 53388375078860),
  (1078, 523991792940, 115929331067010), (1083, 357026506855, 294350605412720),
  (1072, 7132659992, 107042763045310), (1037, 548955598976, 158589150154610),
  (1343, 29600445633, 86030992875280), (1361, 346603373194, 10702492748170),
  (1061, 244580706826, 104833622992530), (1002, 555216117410, 33773251065900),
  (981, 315500987023, 7084944530420), (1007, 411504050436, 50123677709140),
  (965, 563719524421, 160329998928540), (1083, 488373909810, 116640685767090),
  (953, 283352026342, 358340334044120), (1060, 318542176646, 44779581952650),
  (1136, 226568590950, 52549817940060), (1191, 225249961404, 10627416795630),
  (884, 469777781327, 96022130923370), (1165, 156030440737, 63033605875840),
  (947, 50856414717, 84290144101350), (1011, 30814674949, 159300504854690),
  (924, 231939900786, 32743756992050), (896, 22222521202, 74692221379570),
  (1078, 478329116086, 273020695868920), (938, 542471506763, 158514074202070),
  (923, 444469169065, 967648103411560), (894, 26940821870, 265556837247380),
  (1131, 546382510304, 22434479570190), (808, 48295590141, 337721779200400),
  (809, 414122746067, 11413847448250), (864, 183217006136, 466586644600),
  (1106, 260444312553, 20936694217490), (790, 11493626208, 46053844081980),
  (799, 160426497590, 522369391980220), (933, 30976125598, 68547393735270),
  (1053, 523433104008, 84215068148810), (846, 302878393490, 574627133789600),
  (799, 208457026425, 7773401845962799), (820, 99821486743, 37301422095920),
  (892, 536446426391, 82792358748650), (821, 353889274951, 49867147645760),
  (741, 132379374647, 53021222995640), (790, 288034567513, 93812990870590),
  (842, 339449778904, 48444438245600), (785, 57841470897, 85001498801430),
  (759, 382014112009, 628307584999140), (954, 294534072982, 46202291352810),
  (767, 333725133157, 9916062095550), (810, 469425300466, 222897018159780),
  (700, 172050221502, 77523338944700), (764, 491747674296, 167082502850000),
  (724, 608692841992, 228123049651060), (711, 482250918143, 1177941344680),
  (692, 263705354662, 659228213900), (771, 387410612014, 969070812811720),
  (906, 247189948442, 327412501778540), (781, 125357484582, 20225339517410),
  (757, 378079814332, 281803500860600), (756, 428312053897, 280380791460440),
  (663, 527704405712, 453257894941100), (759, 545358686570, 968359458111640),
  (698, 543712520216, 56511568774670), (709, 371117647887, 368649611465980),
  (677, 427891183416, 2502852121138500), (643, 140239510103, 916101716302260),
  (656, 60909845504, 83578789401270), (635, 575373871128, 42977958461370),
  (702, 610412979847, 463567172362960), (627, 303666956129, 284041327990860),
  (802, 418688054701, 575338488489680), (838, 451386507097, 106967687092770),
  (633, 437183361444, 541662597140), (652, 579409889124, 106182961074400),
  (638, 218896270346, 31321047591890), (827, 594231186039, 145752593306200)]

/-- `vsop87d_dict.py` 19699-19779. -/
def jupiterR1_3 : List (ℕ × ℕ × ℕ) := [
  (678, 245013730979, 576049843189760), (814, 489578791170, 156773225428140),
  (624, 61631100566, 117670179840940), (600, 320918322285, 109873880610440),
  (717, 182349064490, 317103224356680), (651, 414419317491, 284752682690940),
  (629, 175272560843, 9204707395470), (626, 353146082217, 306793946934820),
  (667, 422974611158, 453969249641180), (565, 99416346033, 189441906467650),
  (752, 46063700150, 63523141986800), (622, 198136818407, 2556532572348040),
  (614, 248275371627, 2555109862947879), (560, 140733893388, 44631134681820),
  (558, 437217796469, 105789745748090), (628, 465037810102, 627596230299060),
  (659, 241470950463, 19513984817330), (616, 208837621877, 1003430830760),
  (692, 313229025530, 763481186260), (685, 418539472904, 4647042291600),
  (624, 2693303471, 149309366806600), (594, 213375704438, 12125202148330),
  (508, 213584300710, 169692102940), (674, 147570122611, 469400295470760),
  (559, 448852017557, 53117543780290), (640, 310239233469, 1104570026390),
  (496, 129000001439, 92783496796740), (587, 330651435298, 60054041039880),
  (582, 44540948860, 11338771495710), (492, 483275232000, 949214631500480),
  (549, 434579166146, 304659882834580), (576, 122846846364, 151429129671650),
  (593, 586079640612, 52406189080210), (510, 262557031270, 52985102378900),
  (489, 626855707323, 369360966166060), (480, 30754294369, 52894020556920),
  (582, 351934668795, 105693424963440), (493, 552699906925, 51228247735530),
  (481, 299681040149, 915390361602180), (562, 373437025868, 201567108615980),
  (458, 386646994292, 1130633269480), (457, 180238019931, 328123856478620),
  (453, 617995938655, 105933374607940), (551, 13794958618, 191257831194120),
  (446, 553828660924, 233206295581640), (444, 506219342598, 786430652620),
  (461, 16951411708, 2608790314157420), (439, 414986379679, 115142900414390),
  (614, 542289673768, 209030967237520), (488, 371681959056, 44793883187840),
  (592, 291424148255, 862421265092720), (433, 255336268329, 106404779663520),
  (449, 524955106938, 1021328554621100), (510, 581591864532, 52953090640020),
  (435, 534355963629, 56071045373160), (449, 72330388784, 275866114669240),
  (430, 94519103478, 636278747540), (563, 619175228344, 188412412393800),
  (443, 339246520261, 115217976366930), (430, 128652623263, 50531194270640),
  (422, 512631540623, 94498282327580), (464, 290444584145, 39814400287280),
  (410, 124248975309, 506938346150640), (411, 295117124177, 432639340097380),
  (418, 515499986314, 117352040467170), (412, 298125446330, 55406998748280),
  (403, 34381388674, 3224332891440), (402, 588926765351, 157091364801910),
  (505, 149028912471, 378247534187760), (447, 3952029309, 24554242435240),
  (453, 309458004153, 105943011429900), (411, 321727542472, 147568518032670),
  (426, 312237794195, 1256615169998280), (434, 359362426939, 325989792378380),
  (398, 491510709622, 412020785253660), (399, 467075122011, 23463973644040),
  (386, 481320787761, 97051624997220), (427, 321176085113, 97748678462110),
  (411, 431566962034, 75721715453420), (392, 186527946688, 88543971066640),
  (416, 381408093105, 315680514956520)]

/-- `vsop87d_dict.py` 19398-19780. -/
def jupiterR1 : List (ℕ × ℕ × ℕ) := List.flatten [
  jupiterR1_0, jupiterR1_1, jupiterR1_2, jupiterR1_3]

/-- `vsop87d_dict.py` 19782-19881. -/
def jupiterR2_0 : List (ℕ × ℕ × ℕ) := [
  (79644833, 135865896596, 52969096509460), (8251618, 577773935444, 52257741809380),
  (7029864, 327476965833, 53680451209540), (5314006, 183835109712, 105938193018920),
  (1860833, 297682139367, 711354700080), (836267, 419889881718, 41948464387520),
  (964466, 548031822015, 51546387109300), (406453, 378250730354, 106649547719000),
  (426570, 222753101795, 63989728631400), (377316, 224248352873, 158907289528380),
  (497920, 314159265359, 0), (339043, 612690864038, 62567019231240),
  (362943, 536761847267, 20618554843720), (342048, 609922969324, 105226838318840),
  (279920, 426162555827, 41237109687440), (332578, 328961161, 42659819087600),
  (229777, 70530766213, 73587651353180), (200783, 306850623368, 54391805909620),
  (199807, 442884165317, 10309277421860), (257290, 96295364983, 63278373931320),
  (138606, 293235671606, 1422709400160), (113535, 78713911289, 72876296653100),
  (86025, 514434751994, 32350541665740), (94565, 170498041073, 83896928775040),
  (83469, 5834873484, 30927832265580), (75198, 160495195911, 95628915597060),
  (70451, 150988357484, 21329909543800), (80328, 298122361797, 74299006053260),
  (56203, 95534810533, 116247470440780), (61649, 610137889854, 104515483618760),
  (66572, 547307178077, 19907200143640), (50057, 272063162317, 53287235883230),
  (51904, 558435625607, 94206206196900), (39833, 594566506227, 9597922721780),
  (44548, 552445621411, 50835032409220), (44282, 27118152557, 52650957135690),
  (29944, 93641735919, 115536115740700), (28412, 287835720211, 52575881183150),
  (26330, 426891877269, 159618644228460), (27039, 280607741398, 116958825140860),
  (27477, 264841266238, 211876386037840), (22705, 17830004133, 30216477565500),
  (29347, 178589692350, 83185574074960), (19991, 4328951895, 94917560896980),
  (19906, 116072627347, 53362311835770), (21714, 188820231818, 127268102562720),
  (17581, 414974757919, 84608283475120), (17085, 589188996975, 125845393162560),
  (21407, 435468497204, 31639186965660), (21295, 54429472455, 126556747862640),
  (19859, 6453825800, 158195934828300), (17025, 53383755278, 136866025284500),
  (12804, 390044242142, 43371173787680), (13072, 79468040717, 11020632121940),
  (11945, 40671403646, 136154670584420), (11695, 444394618065, 40525754987360),
  (11979, 222872778682, 22041264243880), (9633, 601002272123, 85319638175200),
  (10163, 99504635158, 147175302706360), (8977, 160328709409, 169216566950240),
  (8701, 352167876799, 107360902419080), (8314, 560169732564, 157484580128220),
  (8958, 626708748901, 51939602435610), (7828, 65241611799, 147886657406440),
  (7833, 17920601344, 168505212250160), (7451, 88421084942, 8886568021700),
  (7320, 89341249264, 72164941953020), (9135, 151210840939, 114824761040620),
  (6110, 250080005128, 318139373770), (7037, 444127496638, 33061896365820),
  (5163, 279219166952, 2134064100240), (5079, 297991736844, 137577379984580),
  (4930, 4683167622, 167793857550080), (4664, 228007273876, 148598012106520),
  (4692, 86220230505, 393215326310), (5307, 85008578245, 178814489672020),
  (4239, 40758287124, 62960234557550), (4230, 161046658091, 63596513305090),
  (3627, 271151441113, 55103160609700), (3314, 55067236587, 179525844372100),
  (4409, 128127751050, 146463948006280), (3270, 118744032691, 190546476494040),
  (3226, 618716071251, 103804128918680), (3103, 622971614425, 200144399215820),
  (3410, 244624067925, 53998590583310), (3174, 554870592599, 19195845443560),
  (2590, 324430559059, 106256332392690), (2614, 55149554149, 210453676637680),
  (2174, 532613824409, 189123767093880), (2659, 482459974220, 41630325013750),
  (2187, 171707514653, 62885158605010), (2263, 619233486371, 199433044515740),
  (2328, 428236795066, 96340270297140), (2579, 3256542251, 189835121793960),
  (2077, 332602157426, 169927921650320), (2529, 239697505835, 22752618943960),
  (2468, 6551346218, 75010360753340), (1989, 29206371261, 63671589257630),
  (1927, 32286661566, 29505122865420), (1904, 343534792123, 64701083331480)]

/-- `vsop87d_dict.py` 19882-19971. -/
def jupiterR2_1 : List (ℕ × ℕ × ℕ) := [
  (1940, 29170673525, 211165031337760), (1880, 314403615586, 61144309831080),
  (2324, 194960720763, 82474219374880), (1854, 471794950485, 212587740737920),
  (2547, 123908353090, 222185663459700), (1814, 160250861074, 200855753915900),
  (1611, 583466560322, 42266603761290), (1667, 232455940876, 44082528487760),
  (1622, 36650974375, 105620053645150), (1624, 242139677881, 1029494073850),
  (1622, 351892791175, 105544977692610), (1606, 576205763975, 11731986822020),
  (1646, 588662636573, 231783586181480), (2026, 461781314145, 42341679713830),
  (2098, 104559231028, 178103134971940), (1868, 112487729469, 61855664531160),
  (1885, 278775930564, 180237199072180), (1445, 8308050305, 138288734684660),
  (1797, 300776822706, 264845482547300), (1422, 17649746278, 242092863603340),
  (1129, 159030291320, 38012776796000), (1126, 419989673600, 54785021235930),
  (1186, 598943062173, 231072231481400), (1108, 422655117757, 93494851496820),
  (1259, 119687222266, 106331408345230), (1072, 386169004168, 160329998928540),
  (946, 559968097387, 9991138048090), (937, 103083276760, 8175213321620),
  (938, 618136092771, 94599421523210), (908, 254355964041, 628307584999140),
  (874, 521903196047, 220762954059540), (874, 601240284465, 51153171782990),
  (1188, 75698357968, 209742321937600), (789, 391035208173, 1021328554621100),
  (1000, 134667100304, 73269511979410), (952, 155355777420, 232494940881560),
  (811, 500475553271, 31957326339430), (763, 398527559630, 33773251065900),
  (880, 114789972199, 95235700270750), (780, 469463316930, 574627133789600),
  (910, 8774541571, 273732050569000), (773, 77131695762, 576049843189760),
  (764, 611686539353, 967648103411560), (758, 219350719860, 969070812811720),
  (671, 119532387143, 12443341522100), (661, 599578306627, 50123677709140),
  (729, 65312263578, 253824850425360), (825, 270770030205, 337010424500320),
  (670, 544169923277, 10702492748170), (739, 114609907817, 264134127847220),
  (866, 302831268213, 304659882834580), (718, 483684196454, 86030992875280),
  (813, 601229270247, 221474308759620), (746, 112371143332, 73980866679490),
  (741, 593171662010, 263422773147140), (667, 89885058003, 10627416795630),
  (573, 242701822581, 73905790726950), (734, 72837704619, 135443315884340),
  (662, 221768976390, 201567108615980), (782, 252401202862, 367938256765900),
  (779, 238608991574, 326701147078460), (553, 185211127676, 45342489381900),
  (701, 423431087374, 968359458111640), (571, 298435419019, 126238608488870),
  (621, 124462887440, 380381598288000), (563, 599845316446, 104908698945070),
  (538, 492334194042, 44779581952650), (534, 99911551571, 46202291352810),
  (541, 619275150397, 198721689815660), (511, 328553278370, 466586644600),
  (539, 533214565622, 275154759969160), (651, 512199308959, 315680514956520),
  (483, 303782387056, 328123856478620), (476, 217592053936, 14956319713460),
  (510, 535664230912, 956122755560), (490, 157324553106, 125134038462480),
  (467, 592343423840, 20300415469950), (528, 581786945766, 262711418447060),
  (447, 351498961805, 1815924726470), (429, 16627197188, 7478159856730),
  (497, 30985248432, 242804218303420), (516, 389424540015, 251690786325120),
  (519, 243126348834, 368649611465980), (404, 277840802846, 716173111060),
  (533, 477083438961, 347319701922180), (515, 354549816613, 317814579056760),
  (533, 561415688189, 252402141025200), (458, 491616403047, 306793946934820),
  (400, 313887720912, 54073666535850), (378, 86122450940, 52502509864860)]

/-- `vsop87d_dict.py` 19781-19972. -/
def jupiterR2 : List (ℕ × ℕ × ℕ) := List.flatten [
  jupiterR2_0, jupiterR2_1]

/-- `vsop87d_dict.py` 19974-20071. -/
def jupiterR3_0 : List (ℕ × ℕ × ℕ) := [
  (3519257, 605800633846, 52969096509460), (1073239, 167321345760, 53680451209540),
  (915666, 141329676116, 52257741809380), (341593, 52296542656, 105938193018920),
  (254893, 119625473533, 711354700080), (221512, 95225226237, 51546387109300),
  (69078, 226885282314, 106649547719000), (89729, 314159265359, 0),
  (57827, 141389745339, 54391805909620), (57653, 52580117593, 63989728631400),
  (51079, 598016364677, 41237109687440), (46935, 157864237959, 62567019231240),
  (42824, 611689609099, 41948464387520), (37477, 118262762330, 1422709400160),
  (33816, 166671706951, 105226838318840), (31195, 104290245896, 158907289528380),
  (30023, 463236245032, 42659819087600), (33531, 84784977903, 20618554843720),
  (20804, 250071243814, 72876296653100), (14466, 96040197071, 50835032409220),
  (12969, 150233788550, 104515483618760), (11654, 355513510121, 32350541665740),
  (12319, 260952614503, 73587651353180), (15023, 89136998434, 19907200143640),
  (11160, 179041437555, 30927832265580), (10554, 627845112678, 95628915597060),
  (9812, 626016859519, 10309277421860), (9301, 345126812476, 83896928775040),
  (6672, 187004905364, 30216477565500), (7442, 128047007623, 74299006053260),
  (7178, 92022189637, 94206206196900), (5577, 137980792905, 9597922721780),
  (6834, 345228722967, 83185574074960), (4632, 282934545414, 159618644228460),
  (3969, 121290005054, 116958825140860), (3869, 599495313698, 21329909543800),
  (3551, 610714791535, 40525754987360), (2943, 232831075458, 115536115740700),
  (2442, 186965213405, 53287235883230), (2410, 42627205128, 22041264243880),
  (2289, 194941487274, 107360902419080), (2274, 9211517505, 63278373931320),
  (2189, 158907745204, 211876386037840), (2387, 597080671477, 116247470440780),
  (2104, 106751462671, 2134064100240), (2128, 151119399925, 125845393162560),
  (2491, 35125020737, 127268102562720), (2006, 594487388360, 11020632121940),
  (1980, 254989377864, 8886568021700), (2040, 216463966964, 43371173787680),
  (1955, 270341589777, 72164941953020), (1670, 446255717328, 85319638175200),
  (1910, 225964760758, 136154670584420), (1710, 198372066321, 52575881183150),
  (1520, 11641358425, 94917560896980), (2003, 316520599208, 114824761040620),
  (1710, 270850417287, 33061896365820), (1629, 47376028854, 52650957135690),
  (1229, 301987279595, 96340270297140), (1671, 44352103086, 53362311835770),
  (1207, 115774089269, 157484580128220), (1146, 254505851138, 84608283475120),
  (1355, 117462112647, 103804128918680), (1001, 270272799283, 51939602435610),
  (1372, 67467128629, 55103160609700), (983, 417198081351, 262711418447060),
  (1084, 107011164067, 22752618943960), (892, 292543286761, 136866025284500),
  (823, 486559196955, 61144309831080), (1136, 178981738432, 158195934828300),
  (897, 491073630270, 167082502850000), (908, 368804047330, 82474219374880),
  (789, 323380893250, 212587740737920), (771, 239070707004, 231783586181480),
  (891, 59692950778, 53998590583310), (876, 452127091462, 75010360753340),
  (802, 20759322884, 114113406340540), (850, 94145487094, 19195845443560),
  (762, 225149516048, 253824850425360), (694, 67080348659, 44082528487760),
  (741, 579934203525, 148598012106520), (643, 248127580335, 126556747862640),
  (575, 613756590872, 127979457262800), (636, 551001645505, 241381508903260),
  (636, 440777238491, 138288734684660), (555, 218233983981, 106256332392690),
  (564, 192775967119, 263422773147140), (531, 204824376019, 29505122865420),
  (541, 232424368689, 147175302706360), (697, 227179476322, 169927921650320),
  (546, 195774905730, 167793857550080), (465, 435550844067, 169216566950240),
  (508, 250298248836, 220762954059540), (496, 577087043616, 147886657406440),
  (440, 598661963879, 93494851496820), (424, 280194129521, 8175213321620),
  (406, 393940190897, 31639186965660), (506, 18719982992, 1029494073850)]

/-- `vsop87d_dict.py` 19973-20072. -/
def jupiterR3 : List (ℕ × ℕ × ℕ) := jupiterR3_0

/-- `vsop87d_dict.py` 20074-20119. -/
def jupiterR4_0 : List (ℕ × ℕ × ℕ) := [
  (128628, 8419309557, 53680451209540), (113458, 424858855779, 52969096509460),
  (82650, 329754909408, 52257741809380), (37883, 273326611144, 51546387109300),
  (26694, 569142588558, 711354700080), (17650, 540012536918, 105938193018920),
  (12612, 601560416057, 54391805909620), (9287, 76813946494, 106649547719000),
  (8107, 568228065707, 1422709400160), (6271, 512286932534, 63989728631400),
  (6978, 142751292055, 41237109687440), (5377, 333501947275, 62567019231240),
  (2911, 340334805052, 105226838318840), (2593, 416090412984, 72876296653100),
  (2562, 289802035072, 42659819087600), (2268, 622195938856, 158907289528380),
  (2114, 311758855774, 104515483618760), (1673, 281399290364, 20618554843720),
  (1805, 260030006919, 19907200143640), (1823, 189432426038, 41948464387520),
  (1522, 133432648232, 159618644228460), (1697, 0, 0),
  (1039, 441904942302, 95628915597060), (1161, 516181311538, 83185574074960),
  (916, 317245716108, 50835032409220), (870, 579387813500, 116958825140860),
  (916, 187129662931, 114824761040620), (955, 66801367802, 136154670584420),
  (788, 147515450553, 127268102562720), (966, 547457968043, 22041264243880),
  (788, 242252866885, 11731986822020), (712, 49655897030, 107360902419080),
  (656, 353022740783, 30216477565500), (681, 284507174340, 19195845443560),
  (771, 219893222018, 94206206196900), (765, 531147257700, 55103160609700),
  (667, 372432305249, 8886568021700), (534, 183172084748, 64701083331480),
  (553, 85896003802, 33061896365820), (543, 526057584439, 2134064100240),
  (584, 382243061802, 61855664531160), (512, 444485521707, 11020632121940),
  (612, 159320941864, 318139373770), (631, 183863158533, 1029494073850),
  (491, 152912023181, 40525754987360), (521, 24011424451, 43371173787680)]

/-- `vsop87d_dict.py` 20073-20120. -/
def jupiterR4 : List (ℕ × ℕ × ℕ) := jupiterR4_0

/-- `vsop87d_dict.py` 20122-20130. -/
def jupiterR5_0 : List (ℕ × ℕ × ℕ) := [
  (11188, 475249399945, 53680451209540), (4255, 591516229170, 52257741809380),
  (2079, 556781555864, 51546387109300), (1908, 429659647286, 54391805909620),
  (1875, 369357495838, 711354700080), (1590, 549312796166, 106649547719000),
  (1612, 413222808529, 105938193018920), (1240, 377981722506, 1422709400160),
  (1033, 450671820436, 52969096509460)]

/-- `vsop87d_dict.py` 20121-20131. -/
def jupiterR5 : List (ℕ × ℕ × ℕ) := jupiterR5_0

/-- `vsop87d_dict.py` 18650-20132 `_planets[("Jupiter", "R")]`. -/
def jupiterR : List (List (ℕ × ℕ × ℕ)) :=
  [jupiterR0, jupiterR1, jupiterR2, jupiterR3, jupiterR4, jupiterR5]

end Verif.Data

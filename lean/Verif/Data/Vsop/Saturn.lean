import Mathlib.Data.Nat.Notation

/-! Generated by tools/gen_vsop.py from vsop87d_dict.py; do not edit.
Each row is amplitude, phase and frequency in units of 1e-11. -/

namespace Verif.Data

/-- `vsop87d_dict.py` 20135-20234. -/
def saturnL0_0 : List (ℕ × ℕ × ℕ) := [
  (87401354029, 0, 0), (11107659780, 396205090194, 21329909543800),
  (1414150958, 458581515873, 711354700080), (398379386, 52112025957, 20618554843720),
  (350769223, 330329903015, 42659819087600), (206816296, 24658366938, 10309277421860),
  (79271288, 384007078530, 22041264243880), (23990338, 466976934860, 11020632121940),
  (16573583, 43719123541, 41948464387520), (14906995, 576903283845, 31639186965660),
  (15820300, 93808953760, 63278373931320), (14609562, 156518573691, 393215326310),
  (13160308, 444891180176, 1422709400160), (15053509, 271670027883, 63989728631400),
  (13005305, 598119067061, 1104570026390), (10725066, 312939596466, 20225339517410),
  (5863207, 23657028777, 52969096509460), (5227771, 420783162380, 318139373770),
  (6126308, 176328499656, 27703499374140), (5019658, 317787919533, 43371173787680),
  (4592541, 61976424374, 19907200143640), (4005862, 224479893937, 6373589830340),
  (2953815, 98280385206, 9597922721780), (3873696, 322282692566, 13851749687070),
  (2461172, 203163631205, 73587651353180), (3269490, 77491895787, 94917560896980),
  (1758143, 326580514774, 52257741809380), (1640183, 550504966218, 84608283475120),
  (1391336, 402331978116, 32350541665740), (1580641, 437266314120, 30927832265580),
  (1123515, 283726793572, 41555249061210), (1017258, 371698151814, 22752618943960),
  (848643, 319149825839, 20936694217490), (1087237, 418343232481, 244768055480),
  (956752, 50740889886, 126556747862640), (789205, 500745123149, 96320784650),
  (686965, 174714407827, 105226838318840), (654470, 159889331515, 4818410980),
  (748811, 214398149298, 85319638175200), (633980, 229889903023, 41237109687440),
  (743584, 525276954625, 22434479570190), (852677, 342141350697, 17516605980020),
  (579857, 309259007048, 7478159856730), (624904, 97046831256, 21011770170030),
  (529861, 444938897119, 11731986822020), (542643, 151824320514, 956122755560),
  (474279, 547527185987, 74299006053260), (448542, 128990416161, 12747179660680),
  (546358, 212678554211, 35033211960040), (478054, 296488054338, 13703302416240),
  (354944, 301286483030, 83896928775040), (451827, 104436664241, 49033408917940),
  (347413, 153928227764, 34077089204480), (343475, 24604039134, 52126486180),
  (309001, 349486734909, 21648048917570), (322185, 96137456104, 20373786788240),
  (372308, 227819108625, 21723124870110), (321543, 257182354537, 64701083331480),
  (330196, 24715617844, 158195934828300), (249116, 147010534421, 136866025284500),
  (286688, 237043745859, 35181659230870), (220225, 420422424873, 20076892246580),
  (277775, 40020408926, 21181462272970), (204500, 601082206600, 26598929347750),
  (207663, 48349820488, 116247470440780), (208655, 134516255304, 62567019231240),
  (182454, 549122292426, 292076130680), (226609, 491003163138, 1253017297220),
  (207659, 128302218900, 3935687591520), (173914, 186305806814, 75075952540),
  (184690, 350344404958, 14956319713460), (183511, 97254952728, 419278569400),
  (146068, 623102544071, 19513984817330), (164541, 44005517520, 541662597140),
  (147526, 153529320509, 562907429250), (139666, 429450260069, 2134064100240),
  (131283, 406828961903, 1029494073850), (117283, 267920400584, 115536115740700),
  (149299, 573594349789, 5269019803950), (122373, 197588777199, 466586644600),
  (113747, 559427544714, 105938193018920), (102702, 119748124058, 168505212250160),
  (118156, 534072933900, 55406998748280), (109275, 343812715686, 53680451209540),
  (110399, 16604024090, 148447270830), (124969, 627737805832, 189835121793960),
  (89949, 580392934702, 11413847448250), (103956, 219210363069, 8886568021700),
  (112437, 110502663534, 19120769491020), (106570, 401156608514, 95628915597060),
  (91430, 187521577510, 3813303563780), (83791, 548810655641, 11187458460),
  (83461, 228972767279, 62885158605010), (96987, 453666595763, 30216477565500),
  (100631, 496513666539, 26992144674060), (75491, 218045274099, 72876296653100),
  (96330, 283319189210, 27555052103310), (82363, 305469876064, 44082528487760),
  (73888, 508914205084, 137577379984580), (71633, 510940743430, 6522037101170)]

/-- `vsop87d_dict.py` 20235-20334. -/
def saturnL0_1 : List (ℕ × ℕ × ℕ) := [
  (70409, 486846451411, 21244832110), (69760, 371029022489, 1497785352700),
  (88772, 386334563977, 27851946644970), (68090, 73415460990, 147886657406440),
  (66501, 2677580336, 7084944530420), (65682, 202165559602, 14244965013380),
  (75765, 161410487792, 28414854074220), (63153, 349493353034, 47928838891550),
  (62539, 258713611532, 42266603761290), (69313, 343979731402, 51546387109300),
  (79021, 445154941586, 3542472265210), (63664, 331749528708, 6225142559510),
  (52939, 551392725227, 26063243090), (53011, 318480701697, 807675484730),
  (54492, 245674090515, 2209140052780), (50514, 426749346978, 9916062095550),
  (55170, 96797446150, 94206206196900), (49288, 238641424063, 147175302706360),
  (47199, 202515248245, 31219908396260), (61080, 150295092063, 21085141488320),
  (45126, 93109376473, 200144399215820), (60556, 268715551585, 38846515523820),
  (43452, 252602011714, 28808069400530), (42544, 381793980322, 33061896365820),
  (39915, 571378652900, 40843894361130), (50145, 603164759907, 221474308759620),
  (45860, 54229721801, 21233588759150), (54165, 78154835399, 19195845443560),
  (47016, 459934671151, 43764389113990), (42362, 190070070955, 43053034413910),
  (39722, 163259419913, 106649547719000), (36345, 84756992711, 21334727954780),
  (35468, 418603772925, 21574677599280), (36344, 393295730315, 21325091132820),
  (38005, 31313803095, 42341679713830), (44746, 112488341174, 615033915430),
  (37902, 119795851115, 270831298570), (43402, 137363944007, 56363121503840),
  (43764, 393043802956, 52549817940060), (34825, 101566605408, 20300415469950),
  (31755, 169273634405, 16005869440), (30880, 613525703832, 41703696332040),
  (36388, 600586032647, 1815924726470), (29032, 119660544505, 40450679034820),
  (32812, 53649479713, 10702492748170), (30433, 72335287989, 22286032299360),
  (32644, 81204701486, 179525844372100), (37769, 369666903716, 127268102562720),
  (27679, 145663979401, 716173111060), (27187, 189731951902, 104515483618760),
  (37699, 451997049537, 2437902238820), (34885, 446095761791, 21426230328450),
  (32650, 66372395761, 69258748435350), (30324, 530369950147, 3394024994380),
  (27480, 622702216249, 127202438720), (26657, 456713198392, 706536289100),
  (31745, 549798599565, 5662235130260), (28050, 564447420566, 12895626931510),
  (24277, 393966553574, 41406801790380), (32017, 522260660455, 9204707395470),
  (26976, 6705123981, 20522234059070), (22974, 365817751770, 20767002114550),
  (31775, 559198119173, 606977675455340), (23153, 210054506119, 178814489672020),
  (31025, 37190053329, 70363318461740), (29376, 14742155778, 13140394986990),
  (22562, 524009182383, 21277783057620), (26185, 541311252822, 14000196957900),
  (25673, 436038885283, 3224332891440), (20392, 282413909260, 42977958461370),
  (20659, 67091805084, 231783586181480), (24397, 308740396398, 14563104387150),
  (23735, 254365387567, 7626607127560), (20157, 506708675157, 61780588578620),
  (23307, 397357729211, 48322054217860), (22878, 610452832642, 17787437278590),
  (22978, 320140795404, 20863322899200), (20638, 522128727027, 659228213900),
  (21446, 72034565528, 125845393162560), (18034, 611382719947, 21037833413120),
  (22380, 592299908546, 17394221952280), (19128, 577772013766, 21382036029980),
  (20871, 579126331864, 253113495725280), (19327, 164147367403, 56511568774670),
  (16806, 327953583323, 9889998852460), (20833, 201655935909, 86030992875280),
  (17939, 314329498012, 83185574074960), (15653, 310137669623, 10627416795630),
  (18235, 522595172482, 7329712585900), (19302, 593947114050, 42511371816770),
  (14514, 275049388379, 122384027740), (14562, 518795088579, 30534616939270),
  (14254, 388079504939, 5417467074780), (14594, 325016810034, 7871375183040),
  (13637, 255486219141, 40525754987360), (13914, 172356993808, 6915252427480),
  (13689, 237430586272, 12598732389850), (13496, 82683590985, 9991138048090),
  (18483, 73171264866, 999998645077300), (13542, 358584380924, 23463973644040)]

/-- `vsop87d_dict.py` 20335-20434. -/
def saturnL0_2 : List (ℕ × ℕ × ℕ) := [
  (13741, 618458356845, 24554242435240), (16944, 72200792996, 211165031337760),
  (17441, 23803796878, 13458534360760), (14181, 451963935804, 5980374504030),
  (13598, 253776983965, 169692102940), (12240, 211973445754, 2831117565130),
  (11988, 162114832786, 136154670584420), (11974, 407378735120, 28096714700450),
  (12758, 531146919749, 34470304530790), (16051, 397093160336, 35574874557180),
  (11427, 551123470805, 19269216761850), (13133, 469168003518, 76736908292080),
  (14746, 328998910617, 158907289528380), (11417, 181615681635, 210453676637680),
  (11626, 279410384978, 36286229257260), (13234, 416642914717, 22582926841020),
  (10599, 550554288376, 19928444975750), (10558, 357501718639, 143628859850),
  (10485, 284462532686, 8582729883120), (10296, 22225264071, 19832124191100),
  (10552, 18716643576, 21749188113200), (11853, 11584857323, 763481186260),
  (10248, 21904154170, 14414657116320), (10403, 168776321208, 3101948863700),
  (10313, 472132701805, 21621985674480), (10719, 260869377832, 33928641933650),
  (9636, 366746262954, 21254833591260), (9631, 334275630477, 22359403617650),
  (9684, 41556436593, 263422773147140), (9885, 401798130416, 20714875628370),
  (13212, 600683506785, 21478356814630), (11346, 261898383052, 786430652620),
  (9158, 539855118256, 34225536475310), (11882, 400188476744, 26747376618580),
  (12054, 359904816676, 12443341522100), (8921, 422716773496, 636278747540),
  (10142, 360807025662, 1401464568050), (9350, 72255756005, 34788443904560),
  (10529, 236779614951, 83110498122420), (8587, 448439552745, 169216566950240),
  (10142, 393620624488, 20788246946660), (9147, 428032835242, 31245971639350),
  (8088, 81225752596, 26450482076920), (9241, 426402650779, 2060692781950),
  (9614, 64291347187, 21892816973050), (8537, 48756672382, 157484580128220),
  (7986, 471088791079, 33365734504400), (8951, 90641577433, 49744763618020),
  (7959, 273277594136, 414460158420), (9133, 508250578843, 24161027108930),
  (9669, 160623316904, 89377187730), (8883, 555491009279, 284752682690940),
  (8926, 580857835271, 32972519178090), (7226, 60164771281, 20623373254700),
  (7655, 553676341721, 11642609634290), (7118, 18747501525, 20910630974400),
  (7507, 543555636173, 62173803904930), (8885, 536210591059, 34321857259960),
  (7056, 41911130648, 75632338265690), (8124, 405571025939, 23767811782620),
  (8964, 165023927130, 21033015002140), (6961, 317855200943, 54302428721890),
  (8916, 56503620503, 242804218303420), (6926, 366869171435, 24723934538180),
  (8982, 425046722481, 4647042291600), (7089, 514399672225, 23145834270270),
  (7381, 125092810119, 21796496188400), (7134, 283090354854, 114824761040620),
  (6353, 82582711056, 3149256938900), (7558, 562617378543, 51864526483070),
  (6383, 354809945181, 24431858407500), (6914, 370012837706, 20613736432740),
  (6286, 579144749096, 17935884549420), (6639, 455197585824, 12035824960600),
  (5823, 140737990571, 21404985496340), (5850, 486725483749, 32032402291970),
  (6213, 107959478499, 25143213107580), (7730, 382244175824, 38012776796000),
  (5716, 134909972549, 167793857550080), (6469, 134776801494, 18892007304980),
  (5668, 228643368177, 2044686912510), (6092, 362275289839, 116958825140860),
  (5711, 51687421521, 14807872442630), (5804, 154831552984, 242092863603340),
  (5703, 505993483230, 296894541660), (5913, 166225477547, 84215068148810),
  (7449, 136195943673, 16682867252200), (6482, 194032041024, 35744566660120),
  (6368, 244556930837, 65412438031560), (6327, 40654591365, 16805251279940),
  (5573, 269383455663, 75010360753340), (7216, 222547711392, 48884961647110),
  (6701, 603737590382, 16060889739850), (6938, 578362034410, 70066423920080),
  (6701, 314738404371, 49181856188770), (5684, 259531540359, 164453140270),
  (4900, 203902856851, 80314915210), (5147, 410182033298, 19662432088160),
  (4985, 296765983996, 25887574647670), (5911, 181507526918, 25265597135320)]

/-- `vsop87d_dict.py` 20435-20534. -/
def saturnL0_3 : List (ℕ × ℕ × ℕ) := [
  (6056, 333431010543, 18227960680100), (6195, 501900871714, 27310284047830),
  (6316, 549053160191, 20670681329900), (5529, 331498938717, 190546476494040),
  (5102, 398171453610, 25494359321360), (4762, 224463685255, 63596513305090),
  (5213, 53609344278, 13554855145410), (4639, 4466373027, 21318722085340),
  (5951, 54565487490, 5120572533120), (4535, 16088614438, 295061960112800),
  (4639, 473769153591, 21341097002260), (4716, 313636467789, 2857180808220),
  (4748, 112156952989, 621977512350), (5735, 4425142145, 34884764689210),
  (4334, 268814219154, 8175213321620), (4538, 383676888638, 48736514376280),
  (5582, 363486861028, 24872381809010), (4106, 339164360376, 5040257617910),
  (5657, 359967787362, 28245161971280), (5145, 133329458239, 17368158709190),
  (3898, 411804949361, 21351154375910), (3898, 66430577257, 21308664711690),
  (4418, 10784811796, 90588657979150), (4935, 219060382431, 18972322220190),
  (3799, 260752583205, 54695644048200), (3960, 160339889010, 21871572140940),
  (3740, 330724497407, 27406604832480), (3778, 26606330942, 63671589257630),
  (4657, 37532078548, 274443405269080), (3682, 511587898667, 45884151979040),
  (4230, 518313062329, 2708733537390), (5181, 375590784411, 312731333126180),
  (3904, 221738744557, 35893013930950), (4784, 460666675927, 7207328558160),
  (3552, 323789349146, 54391805909620), (3502, 368869576093, 4164449777560),
  (4803, 473553427126, 24038643081190), (3768, 386077796242, 200855753915900),
  (3680, 536657425183, 1003430830760), (4298, 315595944154, 73879727483860),
  (3388, 73176365772, 1130633269480), (3507, 262508475661, 1333332212430),
  (3552, 28967392251, 189123767093880), (3604, 469324090480, 29505122865420),
  (3621, 625264336426, 12991947716160), (3334, 504221806054, 15349535039770),
  (3837, 531732096284, 316391869656600), (3281, 559031570352, 200573757010),
  (4042, 237081308090, 17665053250850), (3500, 254744268360, 146463948006280),
  (4144, 546982520458, 690109867970), (3691, 407518441665, 96962247809490),
  (3947, 427108449197, 18180652604900), (3867, 548643386310, 3787240320690),
  (3339, 605372370584, 940116886120), (3484, 581097824751, 1349338081870),
  (3033, 238897886651, 22137585028530), (2990, 413995939326, 6670484372000),
  (3746, 529902286106, 56118353448360), (3233, 427743802321, 59342686339800),
  (3170, 175400477770, 23539049596580), (4114, 201006788412, 60176425067620),
  (2937, 476351448561, 21355972786890), (2932, 183671373509, 50137978944330),
  (2937, 1884528825, 21303846300710), (3268, 444653949711, 6076695288680),
  (3608, 14307251176, 55258551477450), (2947, 74753671556, 1752610781830),
  (3979, 76931722276, 42415051032120), (2803, 107518176128, 199433044515740),
  (2905, 127201007426, 273732050569000), (3610, 22394084000, 12125202148330),
  (2846, 511748545179, 20566428357540), (3156, 274955723696, 49426624244250),
  (3576, 449826302447, 16708930495290), (2746, 66908290712, 700167241620),
  (2780, 210066625279, 89484087952760), (2875, 239009721774, 15104766984290),
  (3020, 25475826890, 4084134862350), (2731, 374814908509, 42904587143080),
  (2793, 417938837230, 29201284726840), (2706, 534438894925, 32743756992050),
  (2965, 61653881148, 64382943957710), (2616, 481901387560, 68154178408960),
  (2548, 378162580820, 148598012106520), (3483, 576091147029, 14122580985640),
  (3257, 75722680616, 55555446019110), (2887, 615899159727, 42563498302950),
  (2450, 129619859767, 19365537546500), (3401, 248137843009, 4328902917830),
  (3208, 66002842340, 77693031047640), (2435, 458097103726, 47780391620720),
  (2577, 141538858001, 10064509366380), (2600, 373139519973, 1740848773930),
  (2428, 104400815278, 127979457262800), (2569, 536004101928, 722542158540),
  (2844, 247228767650, 28000393915800), (2847, 152706408796, 1726547538740),
  (2461, 273899140465, 17224529849340), (3228, 410258705369, 61855664531160)]

/-- `vsop87d_dict.py` 20535-20634. -/
def saturnL0_4 : List (ℕ × ℕ × ℕ) := [
  (2288, 18365494079, 42664637498580), (2952, 397748947007, 65094298657790),
  (2653, 14255829255, 16289651925890), (2291, 326940117011, 42655000676620),
  (3118, 280941831445, 222185663459700), (2343, 424349768377, 11338771495710),
  (2780, 436271946528, 13044074202340), (2539, 558396427573, 38135160823740),
  (2673, 274210116623, 4557665103870), (3017, 372208070740, 22827694896500),
  (2781, 36312756349, 859801970910), (2377, 449193242045, 2512978191360),
  (2140, 543424670725, 63033605875840), (2456, 171617205116, 31368355667090),
  (2071, 240453395841, 1646232623530), (2050, 619704773331, 326701147078460),
  (2764, 40107063007, 21944943459230), (2307, 261462153778, 2682670294300),
  (2650, 5892373791, 585647765911540), (1974, 215890150781, 74692221379570),
  (1949, 313157993205, 22663241756230), (2063, 75916097286, 47217484191470),
  (2172, 141622302638, 2357587323610), (2378, 345446288811, 24187090352020),
  (2314, 292766120608, 17076082578510), (2409, 155291842382, 11265400177420),
  (2092, 433481587531, 21059078245230), (1883, 475777119721, 11562294719080),
  (1963, 563940648232, 45490936652730), (1871, 214579836453, 13533610313300),
  (2304, 11816226543, 306082592234740), (2221, 434506511014, 55651766803760),
  (1867, 570943358261, 1912245511120), (2269, 336100653157, 69651963761660),
  (2127, 44754929310, 21600740842370), (1807, 615427316170, 584152261360),
  (2213, 342223891884, 53362311835770), (1866, 390535444843, 22036445832900),
  (1767, 94232357739, 21345915413240), (1767, 384003619647, 21313903674360),
  (1910, 372504487558, 10405598206510), (1750, 82378244287, 22046082654860),
  (1838, 6310147657, 43615941843160), (2146, 441415180481, 18409414790940),
  (1730, 221039276178, 41630325013750), (1715, 26601715797, 10314095832840),
  (1710, 63515407580, 18105576652360), (2307, 329544714308, 56904784100980),
  (1906, 530639447218, 40599126305650), (1863, 468613642432, 28659622129700),
  (1873, 226516020863, 178103134971940), (2035, 385188859267, 67214061522840),
  (2236, 301959133214, 10554045477340), (1767, 145800271562, 1667477455640),
  (1633, 16030477876, 1891000679010), (2116, 290186702031, 48640193591630),
  (2202, 388125957017, 42756139872250), (1706, 335213628354, 10304459010880),
  (1604, 248973273967, 5565914345610), (1744, 183791106739, 104440407666220),
  (1569, 610089581118, 10601353552540), (2081, 603810192844, 91693228005540),
  (1799, 501592570405, 73194436026870), (1737, 149651330833, 2586349509650),
  (1695, 353314158403, 62736711334180), (1543, 81384993001, 231072231481400),
  (1896, 338169845451, 232494940881560), (1926, 466519027283, 35330106501700),
  (1765, 514740716994, 10728555991260), (1556, 112431826916, 23082520325630),
  (1843, 2435960281, 10212956637210), (1501, 418415120927, 19417664032680),
  (1528, 100328674046, 305371237534660), (1529, 558893570479, 21202707105080),
  (1684, 508547245125, 348031056622260), (1461, 231020597821, 72164941953020),
  (1480, 534331643017, 41852143602870), (1601, 553623000915, 39117346822390),
  (1893, 362340803433, 20470107572890), (1529, 606535432009, 7796299230500),
  (1529, 547660937625, 21457111982520), (1552, 206693539836, 3664856292950),
  (1453, 604709831442, 16560483224460), (1393, 228253369060, 40302231763990),
  (1444, 290650214018, 44793883187840), (1924, 137028714759, 46824268865160),
  (1426, 13255011458, 220762954059540), (1389, 221739183113, 64307868005170),
  (1365, 163853880518, 62960234557550), (1362, 335131049142, 9353154666300),
  (1376, 536989538450, 18016199464630), (1584, 85642767335, 27140591944890),
  (1405, 569231057947, 2527279426550), (1681, 530308110734, 83503713448730),
  (1598, 304233449432, 4253826965290), (1759, 359043066940, 50835032409220),
  (1394, 455070863290, 42607692601420), (1314, 181147178081, 138288734684660),
  (1281, 426508388040, 12353964334370), (1742, 571133189432, 2289454967990)]

/-- `vsop87d_dict.py` 20635-20734. -/
def saturnL0_5 : List (ℕ × ℕ × ℕ) := [
  (1483, 184687831602, 28956516671360), (1257, 301131200921, 40992341631960),
  (1285, 441168551011, 55800214074590), (1355, 387115897452, 180237199072180),
  (1333, 8474224795, 41162033734900), (1235, 408060394635, 2845418800320),
  (1373, 506955106471, 42711945573780), (1565, 232953532704, 4105379694460),
  (1656, 606169130804, 26843697403230), (1212, 305966957556, 42096911658350),
  (1238, 525936700679, 41258354519550), (1220, 392987038126, 266012887590),
  (1552, 148184004773, 978668735533500), (1240, 146716327302, 29126208774300),
  (1133, 539046583617, 42367742956920), (1319, 579905891015, 110813997496560),
  (1329, 92291650117, 77841478318470), (1399, 255906860098, 42193232443000),
  (1120, 386777259232, 103335837639830), (1164, 410048660918, 68547393735270),
  (1321, 145843550806, 107360902419080), (1313, 11761534168, 7181265315070),
  (1438, 257741975416, 10038446123290), (1190, 563379509659, 510780943070),
  (1289, 520604565993, 27825883401880), (1157, 500101860101, 23056457082540),
  (1233, 270207317014, 28266406803390), (1209, 402230498135, 98066817835880),
  (1070, 517569455055, 31321047591890), (1292, 430946655209, 21989137757700),
  (1399, 258476795858, 253824850425360), (1038, 14212199680, 82005928096030),
  (1245, 408278897130, 52575881183150), (1254, 246275017735, 45761767951300),
  (1021, 111239421009, 6936497259590), (1009, 101709171385, 14393412284210),
  (1075, 239196853318, 4875804477640), (1180, 618938910429, 337721779200400),
  (989, 594928603657, 358340334044120), (972, 425434114756, 39739324334740),
  (983, 4442608551, 14096517742550), (972, 567683107883, 42240540518200),
  (1298, 134524469231, 87583029900100), (1190, 67933974618, 69970103135430),
  (950, 266964340700, 9230770638560), (933, 63000656580, 40695447090300),
  (959, 177556884452, 6766805156650), (1185, 370140604185, 28563301345050),
  (956, 518928530992, 31931263096340), (1014, 197449310063, 209742321937600),
  (1048, 369659410655, 11791056905120), (1153, 253320305623, 10457724692690),
  (1258, 251536062507, 69407195706180), (971, 519147635849, 24012579838100),
  (940, 394701776697, 3521227433100), (1047, 612360979460, 23890195810360),
  (1185, 528289734361, 63841281360570), (893, 95364488395, 1481779483260),
  (1094, 393009679240, 94524345570670), (949, 346451925897, 44386366626340),
  (1002, 318639902867, 33773251065900), (1017, 287111101661, 21160217440860),
  (875, 58638080067, 228762186040), (925, 154981519784, 1964371997300),
  (1152, 168528608590, 69110301164520), (832, 264637256467, 43689313161450),
  (834, 388913521570, 33120966448920), (825, 215437872210, 73980866679490),
  (848, 318263239100, 19603362005060), (1044, 387842686803, 53261172640140),
  (846, 538853773752, 9767614824720), (1021, 293075488512, 18498791978670),
  (843, 612012061227, 61632141307790), (820, 101380400969, 48077286162380),
  (842, 356523575381, 42118156490460), (1076, 328234305253, 567725840230),
  (808, 278227865672, 21207525516060), (812, 94281737163, 10872184851110),
  (808, 221202653278, 61069233878540), (808, 200008111713, 21452293571540),
  (875, 214897461363, 11439910691340), (791, 235474255596, 137259812370),
  (960, 25496742364, 71074673161820), (1001, 234471240227, 1604163511000),
  (994, 63700664871, 8493352695390), (985, 263664920104, 39557870223900),
  (874, 259112594967, 41800017116690), (758, 58117487362, 262711418447060),
  (894, 148976897396, 76025553592000), (768, 525095392845, 30508553696180),
  (1020, 273153988233, 26895823889410), (903, 13224671457, 23842887735160),
  (750, 76128043194, 72483081326790), (903, 337105323370, 52650957135690),
  (930, 283622594110, 264134127847220), (808, 523759255053, 21626804085460),
  (864, 122059443823, 57074476203920), (798, 372388187653, 12450285119020),
  (753, 72747041757, 337010424500320), (844, 203251767810, 51153171782990)]

/-- `vsop87d_dict.py` 20735-20834. -/
def saturnL0_6 : List (ℕ × ℕ × ℕ) := [
  (827, 449936223096, 44475743814070), (848, 374330244183, 211876386037840),
  (795, 27939057139, 10186893394120), (754, 568583497533, 66253120356300),
  (750, 478778128003, 10257150935680), (709, 164518562815, 15912442469020),
  (770, 402404991950, 90981873305460), (765, 162693133597, 46595506679120),
  (911, 504635658282, 91396333463880), (861, 278971410809, 49575071515080),
  (688, 110207467005, 153686233500), (803, 433043919090, 45342489381900),
  (673, 3439333853, 252402141025200), (856, 350639182375, 43912836384820),
  (684, 393906807606, 33780194662820), (716, 618909854987, 31071461125430),
  (922, 170634200320, 12518417474640), (885, 169955870744, 628307584999140),
  (656, 128102954508, 43201481684740), (808, 164410808383, 29912639426920),
  (656, 149449164620, 84926422848890), (679, 402962984490, 42951895218280),
  (854, 304068731741, 29823262239190), (676, 217631477883, 57616138801060),
  (881, 547733557925, 22093390730060), (739, 585330901725, 93812990870590),
  (637, 296294462433, 42584743135060), (665, 162998758015, 22116340196420),
  (693, 353871697600, 118292157353290), (659, 185319023888, 7233391801250),
  (631, 201234919422, 5810682401090), (806, 521763933753, 42808266358430),
  (804, 594281804567, 2602355379090), (679, 211784460940, 25642806592190),
  (692, 188791537515, 21499601646740), (731, 195762888351, 1901058052660),
  (786, 91252523635, 51838463239980), (684, 489288171806, 379670243587920),
  (612, 208511492036, 103804128918680), (598, 348814927085, 21966188291340),
  (828, 31689472200, 2560286266560), (773, 457524006328, 62491943278700),
  (775, 612920077021, 43222726516850), (820, 411320326130, 14148644228730),
  (588, 195775535412, 21186280683950), (661, 530100397707, 10361403908040),
  (588, 282460441973, 21473538403650), (651, 556732715834, 39346109008430),
  (564, 401666572198, 85001498801430), (657, 258166087726, 52698265210890),
  (722, 68494219480, 95310776223290), (592, 237190662490, 20543478891180),
  (738, 107981019512, 23916259053450), (590, 603587790219, 18802630117250),
  (559, 576010635813, 43079097657000), (535, 580499883199, 10017201291180),
  (611, 595439360100, 369360966166060), (591, 422379888536, 50531194270640),
  (691, 296568305933, 60676018552230), (648, 233387623043, 3075885620610),
  (544, 221686115865, 9279783348010), (517, 268282421083, 26205714021440),
  (563, 169735688719, 241381508903260), (569, 285075508949, 22731374111850),
  (531, 217713708433, 26302034806090), (504, 444947885193, 34373983746140),
  (578, 331462999801, 3372780162270), (619, 183409636127, 86742347575360),
  (546, 482201187196, 104833622992530), (517, 142016110098, 124665747183630),
  (681, 194124532036, 2587460404613620), (551, 570617358907, 111918567522950),
  (523, 578878978812, 36679444583570), (486, 190063955671, 106331408345230),
  (552, 364325031166, 25658812461630), (612, 239349965241, 285464037391020),
  (495, 346833581240, 59735901666110), (622, 186539391351, 52401370669230),
  (480, 533557742428, 2920494752860), (492, 464109549618, 38405992122310),
  (520, 232171681836, 295773314812880), (545, 53274778710, 43126405732200),
  (479, 213325177240, 31957326339430), (526, 417771910249, 13606981631590),
  (612, 456148986681, 77448262992160), (642, 325195912708, 6788049988760),
  (527, 400299045889, 243515573003500), (524, 469817741494, 33683873878170),
  (495, 595703962647, 76588461021250), (463, 609780322600, 5433472944220),
  (538, 22116216124, 45097721326420), (465, 187487942848, 95857677783100),
  (500, 154084756342, 57222923474750), (528, 354764543325, 23390602325750),
  (451, 572664397006, 389979521009780), (514, 500509609437, 27385360000370),
  (471, 296871670899, 30683064210100), (447, 187279400375, 6203897727400),
  (456, 545521998520, 117187587326900), (499, 192821778530, 21744369702220)]

/-- `vsop87d_dict.py` 20835-20934. -/
def saturnL0_7 : List (ℕ × ℕ × ℕ) := [
  (548, 321873307934, 82474219374880), (579, 229424247924, 81065811209910),
  (550, 67875196590, 31516802937920), (556, 130277646899, 13310087089930),
  (449, 605954557724, 14169889060840), (447, 583737433218, 82399143422340),
  (517, 362832879827, 93494851496820), (482, 104855231956, 105544977692610),
  (482, 407207792722, 19589060769870), (428, 65142455407, 42734895040140),
  (585, 548406138684, 37619561469690), (469, 387344294455, 32058465535060),
  (488, 283523964260, 46053844081980), (450, 430419652064, 8811492069160),
  (537, 85582040238, 21419286731530), (438, 132216133929, 96340270297140),
  (560, 250374228728, 95209637027660), (442, 280002649649, 20915449385380),
  (443, 431062007978, 999287290377220), (469, 45235276525, 46473122651380),
  (488, 35817443686, 3690919536040), (418, 481080887468, 77523338944700),
  (417, 493943593579, 30609692891810), (483, 392847922420, 3961750834610),
  (467, 189153069484, 3005628079050), (410, 552148731635, 11807062774560),
  (406, 135991757653, 94599421523210), (446, 406656112480, 38038840039090),
  (466, 365954736664, 98853248488500), (418, 140185532806, 31394418910180),
  (481, 180873987903, 4312897048390), (437, 86746182155, 17097327410620),
  (483, 449894122772, 4620979048510), (398, 290977731924, 13154696222180),
  (529, 374604329884, 69917976649250), (396, 34033987778, 294350605412720),
  (545, 297400965609, 30560680182360), (412, 381935995126, 8434282612290),
  (425, 260672101181, 12184272231430), (474, 241769418569, 83821852822500),
  (457, 127246488727, 10775864066460), (519, 312247974037, 1021328554621100),
  (495, 463705386984, 30141401612960), (537, 392653937147, 21240532356070),
  (385, 333476325050, 80672595883600), (477, 166001855277, 17542669223110),
  (378, 47722247042, 20055647414470), (459, 514821844812, 96022130923370),
  (401, 436420932544, 73905790726950), (467, 296423984091, 17001006625970),
  (457, 445829983338, 3313710079170), (476, 363257697985, 2049505323490),
  (462, 357494442856, 7160020482960), (376, 294770389653, 606266320755260),
  (473, 532759318114, 37390799283650), (383, 184111991862, 34639996633730),
  (366, 205039240297, 8731177153950), (383, 200608370504, 327412501778540),
  (374, 565444305031, 54073666535850), (410, 562629715297, 5831927233200),
  (441, 626992749567, 37890392768260), (451, 305920369737, 89877303279070),
  (371, 565787287655, 8975945209430), (367, 571998148487, 9687299909510),
  (410, 106290837961, 125770317210020), (418, 203053179312, 14659425171800),
  (492, 89529424356, 42362924545940), (474, 243080822444, 70511765732570),
  (457, 342347802916, 82962050851590), (419, 32183412086, 9056260124640),
  (347, 360116807440, 44923210812500), (397, 229159647723, 78234693644780),
  (433, 340938468811, 3245577723550), (343, 430952656038, 40132539661050),
  (351, 42160026295, 368649611465980), (360, 583204569879, 49155792945680),
  (389, 273429108352, 3617548217750), (434, 33664392528, 5513787859430),
  (346, 509191837323, 39265794093220), (336, 238696934868, 29519424100610),
  (336, 156832822829, 23374596456310), (400, 308774286568, 74591082183940),
  (468, 421298903633, 83258945393250), (400, 132415028336, 55110104206620),
  (344, 152193307438, 75483890994860), (433, 306696455642, 88543971066640),
  (346, 476971433870, 411309430553580), (329, 331034285904, 95235700270750),
  (425, 290590905341, 46202291352810), (342, 587738962422, 56193429400900),
  (439, 20791179302, 76885355562910), (330, 208599193524, 61462449204850),
  (394, 359805431851, 126163532536330), (369, 603075127328, 19980571461930),
  (375, 256075851331, 73269511979410), (408, 69233617038, 32824071907260),
  (331, 428333309370, 54153981451060), (323, 6694179304, 43375992198660),
  (431, 450603340920, 291401423582380), (343, 218898146246, 8019822453870)]

/-- `vsop87d_dict.py` 20935-21034. -/
def saturnL0_8 : List (ℕ × ℕ × ℕ) := [
  (437, 534124436008, 38724131496080), (371, 482569229712, 10335340664950),
  (318, 375720880396, 74920983565610), (344, 70749566894, 22997386999440),
  (312, 602741985422, 36137781986430), (340, 64358874512, 30386169668440),
  (394, 49801994278, 24846318565920), (309, 583535487659, 23619364511790),
  (325, 265292455786, 75721715453420), (365, 56788400592, 40221916848780),
  (342, 383450185886, 51939602435610), (306, 35126074897, 35499798604640),
  (314, 542086935152, 115142900414390), (384, 9367760642, 20151968199120),
  (307, 562165090342, 42648631629140), (301, 178550205039, 135443315884340),
  (300, 523426324539, 19040454575810), (296, 315801280224, 19285222631290),
  (381, 198600461808, 10994568878850), (370, 557659190517, 56214674233010),
  (305, 273187068494, 84066620877980), (374, 373375594662, 42044785172170),
  (307, 403149340189, 42671006546060), (320, 142665180100, 273020695868920),
  (392, 14343294900, 20639799675830), (288, 244787565138, 62322251175760),
  (344, 157825843162, 629018939699220), (317, 184490263693, 21494362684070),
  (346, 216849893508, 317103224356680), (286, 101623455966, 31564111013120),
  (361, 344807605339, 25976951835400), (280, 464272946177, 25414044406150),
  (285, 209430258387, 33514181775230), (281, 472136141979, 31714262918200),
  (289, 470265740009, 2974746424980), (290, 274360609522, 55103160609700),
  (300, 523308974173, 132143907040360), (283, 121193797828, 169927921650320),
  (280, 45877292284, 3860611638980), (273, 181952809851, 105620053645150),
  (336, 563115066542, 9522846769240), (309, 333676739908, 119396727379680),
  (288, 257603349418, 116640685767090), (277, 335359995343, 53287235883230),
  (287, 37229115993, 11494162363460), (274, 421164027953, 9082323367730),
  (267, 561367132586, 87046185713940), (376, 614391456675, 91300012679230),
  (296, 575705165982, 401000153131720), (304, 197982468634, 49596316347190),
  (308, 508911712262, 48173606947030), (265, 2893016561, 17245774681450),
  (291, 210106037916, 61929035849450), (273, 478343050572, 77130123618390),
  (358, 4093867464, 63744960575920), (272, 586505586319, 33217287233570),
  (266, 328626000731, 56071045373160), (312, 391213951915, 122621060271120),
  (258, 341185135958, 42681063919710), (257, 106772454181, 71467888488130),
  (258, 624129294573, 42638574255490), (256, 75289096697, 10384353374400),
  (254, 321116652124, 10234201469320), (254, 614632777985, 62025356634100),
  (266, 254280196709, 13288842257820), (314, 31303204249, 99171387862270),
  (317, 293589163442, 35723321828010), (266, 612280636670, 5751612317990),
  (254, 299730079627, 64234496686880), (267, 554663413439, 62859095361920),
  (348, 133319249154, 81506334611420), (278, 559573741920, 33455111692130),
  (303, 322789148979, 40918970313670), (246, 390430259983, 44157604440300),
  (260, 386355293530, 63937602145220), (250, 7635434166, 284041327990860),
  (246, 571009371698, 47631944349890), (301, 615272106984, 55969906177530),
  (268, 373809606804, 65805653357870), (316, 463035287047, 74527768239300),
  (311, 351827727424, 275154759969160), (239, 51133317457, 104122268292450),
  (238, 546347279420, 421618707975440), (262, 320254407166, 125134038462480),
  (238, 102679111743, 126238608488870), (277, 332996713394, 54547196777370),
  (271, 49229846069, 41953282798500), (303, 377087511317, 28537238101960),
  (234, 364328189368, 40747573576480), (270, 393080966194, 31347110834980),
  (302, 315201610429, 91523535902600), (264, 46127639727, 72089866000480),
  (235, 174238582338, 36908206769610), (284, 520345848078, 39510562148700),
  (295, 503016292492, 59465070367540), (290, 194941528794, 90737105249980),
  (229, 11049722694, 325989792378380), (304, 181516929363, 4972125262290),
  (268, 554944666204, 1235285260454480), (248, 439993603541, 38554439393140)]

/-- `vsop87d_dict.py` 21035-21134. -/
def saturnL0_9 : List (ℕ × ℕ × ℕ) := [
  (234, 163365119249, 359051688744200), (317, 474907646809, 42000590873700),
  (228, 489094697746, 118143710082460), (258, 241510535278, 55013783421970),
  (236, 410002766188, 646792575796160), (249, 197767956861, 58949471013490),
  (226, 160308230318, 31627999507200), (286, 610513234736, 48470501488690),
  (299, 371741328977, 112311782849260), (263, 185502475341, 60887779767700),
  (220, 94624116595, 31650374424120), (292, 312099513976, 4769426319340),
  (217, 493010394323, 28117959532560), (295, 318346450625, 105099635880120),
  (248, 548523310249, 63893407846750), (276, 109325899753, 54450875992720),
  (279, 265446123759, 13411226285560), (247, 417284927352, 95013881681630),
  (212, 245582771491, 116476232626820), (266, 230028827109, 31490739694830),
  (215, 355148746518, 109709427470170), (223, 36862624591, 8189514556810),
  (283, 35013012349, 126949963188950), (263, 58255768951, 38698068252990),
  (208, 461303945066, 66820846196530), (222, 451639912193, 30412232911530),
  (274, 63572336701, 67925416222920), (215, 74685271552, 100897935401010),
  (268, 343326489941, 59884348936940), (271, 398364990268, 45368552624990),
  (215, 224139383226, 66123792731640), (264, 258516335032, 252720280398970),
  (205, 194472028389, 65019222705250), (258, 150724315598, 175983372106890),
  (272, 627135287672, 99022940591440), (201, 111891338895, 9741551581630),
  (236, 413547185065, 34863519857100), (201, 267485193508, 154653462563090),
  (250, 544391862722, 125452177836250), (203, 548660442144, 55703893289940),
  (250, 32142312427, 2544800585526019), (198, 91019549387, 131039337013970),
  (200, 90438804926, 4706112374700), (194, 405730813129, 42685882330690),
  (197, 58292199999, 15667674413540), (197, 259384188520, 63984910220420),
  (201, 149980256114, 82792358748650), (197, 579126360809, 63994547042380),
  (266, 145514683392, 10924311337290), (239, 463640382863, 86871675200020),
  (194, 559582424111, 42633755844510), (247, 291348766248, 68961853893690),
  (205, 104616771894, 44868959140380), (232, 176503818816, 35426427286350),
  (224, 345391027762, 119003512053370), (221, 627951545913, 159618644228460),
  (237, 124961141369, 88294384600180), (206, 517010664247, 25345912050530),
  (203, 25518217825, 400288798431640), (245, 394368773869, 76981676347560),
  (255, 611790751550, 76343692965770), (194, 283197251801, 26370167161710),
  (237, 214007373880, 270071514038580), (203, 300078001542, 138517496870700),
  (203, 388000057282, 41943645976540), (186, 479530535895, 84363515419640),
  (203, 16707173895, 53591074021810), (245, 76762638475, 564317856367740),
  (183, 220151176434, 3516409022120), (242, 341613986919, 86424208201590),
  (249, 347840802421, 104588854937050), (199, 470077509959, 127661317889030),
  (189, 184247610390, 43467494572330), (192, 383148077309, 66672398925700),
  (201, 134290804373, 101291150727320), (210, 512097279511, 349453766022420),
  (192, 136630036429, 90440210708320), (195, 162629576534, 36434676528090),
  (179, 166502999050, 24479166482700), (186, 455663748319, 34741135829360),
  (201, 50219680740, 3638793049860), (179, 455153097409, 9746369992610),
  (200, 68398141887, 201567108615980), (195, 220599546209, 6618357885820),
  (186, 448925201018, 61144309831080), (186, 313663606153, 43366355376700),
  (177, 362811326217, 32668681039510), (206, 38552475035, 85712853501510),
  (229, 122330638216, 290690068882300), (213, 608436923028, 27161836777000),
  (174, 618833529233, 357628979344040), (220, 289866380776, 32261164478010),
  (202, 243755817264, 81214258480740), (211, 427999470527, 112726243007680),
  (188, 97173474238, 108072257119160), (168, 65008064023, 149309366806600),
  (208, 468942071563, 542987946823940), (182, 76058628096, 50456118318100),
  (167, 622608046965, 10850940019000), (176, 208816807487, 67091677495100)]

/-- `vsop87d_dict.py` 21135-21234. -/
def saturnL0_10 : List (ℕ × ℕ × ℕ) := [
  (170, 155680702386, 167082502850000), (187, 412687876136, 998575935677140),
  (166, 158596354370, 137970595310890), (170, 130946662341, 83769726336320),
  (166, 2413278965, 22460542813280), (204, 612072939658, 936008916445900),
  (189, 28191962964, 117580802653210), (184, 287461093640, 39814400287280),
  (172, 541410693088, 230679016155090), (174, 94052578814, 63203297978780),
  (181, 220017945285, 104908698945070), (176, 109857632660, 53197858695500),
  (201, 268411933635, 79568025857210), (197, 143444932583, 34736317418380),
  (200, 433954193534, 136472809958190), (166, 283936872840, 355391152213780),
  (160, 128778451384, 96250893109410), (206, 302518737424, 114113406340540),
  (200, 554644533685, 30831511480930), (158, 475462437610, 153473816584160),
  (156, 342359004405, 24175328344120), (182, 526192506263, 96813800538660),
  (168, 37055108740, 1000709999777380), (174, 461279044571, 22333340374560),
  (158, 423116519562, 82170381236300), (212, 598406058023, 43274853003030),
  (160, 408093018212, 63273555520340), (179, 574376301842, 92404582705620),
  (185, 301715709315, 5587159177720), (185, 75718598244, 128690811962880),
  (170, 346903106526, 130492435454160), (167, 319767851189, 63523141986800),
  (153, 383006208210, 31867949151700), (156, 161558494091, 11025450532920),
  (206, 162702696825, 38994962794650), (184, 331730160238, 157802719501990),
  (184, 619913208096, 73168372783780), (158, 558628906712, 4232582133180),
  (159, 200727485442, 70214871190910), (155, 2889842368, 135761455258110),
  (151, 580616069064, 68005731138130), (157, 567235483479, 7783711123384659),
  (156, 278001360754, 156773225428140), (203, 591820261629, 97110695080320),
  (156, 568482948401, 64945851386960), (186, 572093247348, 66427630870220),
  (184, 405878767739, 97673602509570), (159, 310978439502, 23070758317730),
  (154, 454479813612, 123954392483550), (177, 468148789757, 292112778282460),
  (158, 430854435851, 63374694715970), (195, 533376523453, 113023137549340),
  (188, 204023570497, 112704998175570), (174, 288817750136, 2566841849769900),
  (161, 296300008890, 15274459087230), (170, 170779560770, 49330303459600),
  (156, 305331862578, 91375088631770), (169, 318325334507, 75780785536520),
  (145, 89672198690, 63283192342300), (149, 269519361988, 20326478713040),
  (167, 296547549589, 120183158032300), (187, 317592113403, 84290144101350),
  (173, 191528836350, 348742411322340), (154, 37169915171, 28511174858870),
  (198, 314620903981, 64086049416050), (143, 342760427364, 52012973753900),
  (157, 234913118792, 595957043333400), (178, 534566184657, 27258157561650),
  (171, 334185265551, 306793946934820), (171, 487848878292, 35452490529440),
  (189, 7069084691, 158589150154610), (137, 128925665885, 21410224459010),
  (137, 349438482900, 21249594628590), (174, 307450555579, 6495973858080),
  (181, 78652249647, 65716276170140), (158, 293809799392, 21165456403530),
  (133, 570724173596, 46972716135990), (140, 35530248121, 21951887056150),
  (132, 160614108449, 137259240610810), (164, 168236348359, 70756533788050),
  (128, 149742950959, 4524658263860), (132, 498075995751, 23857188970350),
  (140, 362845435388, 42388987789030), (134, 141837795083, 390690875709860),
  (127, 148966646069, 85637777548970), (158, 257990141197, 36997583957340),
  (132, 239662455993, 18472728735580), (140, 436785639279, 20707932031450),
  (157, 456655940808, 25117149864490), (125, 460433583965, 607689030155420),
  (121, 159513269211, 18484490743480), (145, 585121885906, 22189711514710),
  (137, 76499603885, 47610699517780), (139, 602467582226, 42930650386170),
  (117, 23611722307, 42675824957040), (117, 313382984215, 42643813218160),
  (116, 434801448720, 41896337901340), (135, 269789181467, 45516999895820),
  (134, 119058772772, 50286426215160), (123, 397560160218, 49989531673500)]

/-- `vsop87d_dict.py` 21235-21286. -/
def saturnL0_11 : List (ℕ × ℕ × ℕ) := [
  (110, 237032413718, 43993151300030), (109, 620303291896, 22030076785420),
  (109, 138979633175, 32595309721220), (115, 5845336809, 63182053146670),
  (139, 221086387259, 957338825989700), (142, 614666228712, 334061242669980),
  (122, 477182119272, 60447256366190), (119, 303461367061, 52820649238630),
  (127, 297263950543, 49893210888850), (111, 501192320232, 22020019411770),
  (126, 395743516129, 56660016045500), (98, 236210526249, 63426821202150),
  (108, 246872857126, 8337961827640), (101, 488259474274, 42532616648880),
  (127, 489006771254, 16209337010680), (99, 90073463816, 58631331639720),
  (99, 16310526294, 39435486196160), (115, 49160291262, 51716079212240),
  (101, 386043866859, 19810879358990), (105, 348222097813, 586359120611620),
  (104, 461148354671, 22052451702340), (101, 477041950285, 42787021526320),
  (98, 290784721214, 19996577331370), (127, 14136936897, 233206295581640),
  (91, 622628300117, 21129335786790), (100, 514847283436, 22679247625670),
  (91, 484054379386, 21530483300810), (99, 437583492400, 64041855117580),
  (93, 530395179617, 22270026429920), (86, 457481701854, 63697652500720),
  (111, 61102669309, 108912939443900), (86, 450969293872, 62588264063350),
  (88, 36828594935, 44412429869430), (93, 576287499885, 20389792657680),
  (82, 285558603378, 31883955021140), (82, 519618475111, 146782087380050),
  (86, 97633784601, 20003520928290), (82, 478557953017, 19577298761970),
  (106, 229520624233, 79961241183520), (81, 357727166766, 20597310011610),
  (78, 550343512580, 26280789973980), (87, 76830756075, 20199276274320),
  (102, 211516755277, 20693630796260), (81, 529639775054, 11116952906590),
  (75, 277117107886, 25583736509090), (74, 581587984729, 31644005376640),
  (76, 178743197928, 17165459766240), (94, 499996904753, 37864329525170),
  (89, 585818860151, 80794979911340), (72, 99858616883, 28021638747910),
  (99, 15018241445, 18621176006410), (72, 515715918322, 11015813710960)]

/-- `vsop87d_dict.py` 20134-21287. -/
def saturnL0 : List (ℕ × ℕ × ℕ) := List.flatten [
  saturnL0_0, saturnL0_1, saturnL0_2, saturnL0_3, saturnL0_4, saturnL0_5, saturnL0_6, saturnL0_7, saturnL0_8, saturnL0_9, saturnL0_10, saturnL0_11]

/-- `vsop87d_dict.py` 21289-21388. -/
def saturnL1_0 : List (ℕ × ℕ × ℕ) := [
  (21354295595986, 0, 0), (1296855005, 182820544701, 21329909543800),
  (564347566, 288500136429, 711354700080), (98323030, 108070061328, 42659819087600),
  (107678770, 227769911872, 20618554843720), (40254586, 204128257090, 22041264243880),
  (19941734, 127954662736, 10309277421860), (10511706, 274880392800, 1422709400160),
  (6939233, 40493079985, 63989728631400), (4803325, 244194097666, 41948464387520),
  (4056325, 292166618776, 11020632121940), (3768630, 364965631460, 393215326310),
  (3384684, 241694251653, 318139373770), (3302200, 126256486715, 43371173787680),
  (3071382, 232739317750, 19907200143640), (1953036, 356394683300, 1104570026390),
  (1249348, 262803737519, 9597922721780), (921683, 196089834250, 22752618943960),
  (705587, 441689249330, 52969096509460), (649654, 617418093659, 20225339517410),
  (627603, 611088227167, 30927832265580), (486843, 603998200305, 85319638175200),
  (468377, 461707843907, 6373589830340), (478501, 498776987984, 52257741809380),
  (417010, 211708169277, 32350541665740), (407630, 129949556676, 20936694217490),
  (343826, 395854178574, 41237109687440), (339724, 363396398752, 31639186965660),
  (335936, 377173072712, 73587651353180), (331933, 286077699882, 21011770170030),
  (352489, 231707079463, 63278373931320), (289429, 273263080235, 11731986822020),
  (265801, 54344631312, 64701083331480), (230493, 164428879621, 21648048917570),
  (280911, 574398845416, 244768055480), (191667, 296512946582, 22434479570190),
  (172891, 407695221044, 84608283475120), (167131, 259745202658, 2134064100240),
  (136328, 228580246629, 1029494073850), (131364, 344108355646, 74299006053260),
  (127838, 409533471247, 21723124870110), (108862, 616141072262, 41555249061210),
  (93909, 348397279899, 105226838318840), (92482, 394755499926, 8886568021700),
  (97584, 472845436677, 83896928775040), (86600, 121951325061, 44082528487760),
  (83463, 311269504725, 62567019231240), (77588, 624408938835, 30216477565500),
  (61557, 182789612597, 19513984817330), (61900, 429344363385, 12747179660680),
  (67106, 28961738595, 466586644600), (56919, 501889578112, 13703302416240),
  (54160, 512628572382, 49033408917940), (54585, 28356341456, 7478159856730),
  (51425, 145766406064, 53680451209540), (65843, 564757042732, 956122755560),
  (57780, 247630552035, 19195845443560), (44444, 270873627665, 541662597140),
  (46799, 117721211050, 14956319713460), (40380, 388870105683, 72876296653100),
  (37768, 253379013859, 1253017297220), (46649, 514818326902, 51546387109300),
  (45891, 223198878761, 95628915597060), (40400, 41281520440, 26992144674060),
  (37191, 378239026411, 292076130680), (33778, 321070688046, 136866025284500),
  (37969, 64665967180, 42266603761290), (32857, 30063884563, 35181659230870),
  (33050, 543038091186, 106649547719000), (30276, 284067004928, 20300415469950),
  (35116, 608421794089, 562907429250), (29667, 339052569135, 105938193018920),
  (33217, 464063092111, 27703499374140), (31876, 438622923770, 115536115740700),
  (28913, 202614760507, 33061896365820), (28264, 274178953996, 26598929347750),
  (30089, 618684614308, 28414854074220), (31329, 243455855525, 5269019803950),
  (26493, 451214170121, 34077089204480), (21983, 514437352579, 419278569400),
  (22230, 196481952451, 20373786788240), (20824, 616048095923, 86030992875280),
  (21690, 267578768862, 94206206196900), (22552, 588579123000, 21085141488320),
  (19807, 231345263487, 43764389113990), (19447, 476573277668, 7084944530420),
  (19310, 410209060369, 1815924726470), (22662, 413732273379, 19120769491020),
  (18209, 90310796389, 42977958461370), (17667, 184954766042, 23463973644040),
  (17547, 244735118493, 42341679713830), (15428, 423790088205, 116247470440780),
  (14608, 359713247857, 104515483618760), (14111, 294262468353, 168505212250160),
  (16328, 405665272725, 94917560896980), (13348, 624509592240, 3813303563780),
  (15918, 106434204938, 5662235130260), (14059, 143503954068, 40843894361130),
  (13093, 575815864257, 13851749687070), (15772, 559350835225, 615033915430)]

/-- `vsop87d_dict.py` 21389-21488. -/
def saturnL1_1 : List (ℕ × ℕ × ℕ) := [
  (14962, 577192239389, 2209140052780), (16024, 193900586533, 127268102562720),
  (16751, 596673627422, 62885158605010), (12843, 424658666814, 40525754987360),
  (13628, 409892958087, 147175302706360), (15067, 74142807591, 20076892246580),
  (10961, 155022573283, 22359403617650), (11695, 181237511034, 12443341522100),
  (10346, 346814088412, 137577379984580), (12056, 185655834555, 13140394986990),
  (10123, 238221133049, 10702492748170), (9855, 395166998848, 43053034413910),
  (9803, 255389483994, 9991138048090), (10614, 536692189034, 21574677599280),
  (12080, 484549317054, 83185574074960), (10210, 607692961370, 3224332891440),
  (9245, 365417467270, 14244965013380), (8984, 123808405498, 10627416795630),
  (9336, 581062768434, 716173111060), (9717, 138703872827, 14563104387150),
  (8394, 442341211111, 70363318461740), (8370, 564015188458, 6225142559510),
  (8244, 242225929772, 125845393162560), (7784, 52562994711, 65412438031560),
  (7626, 375258725596, 31219908396260), (7222, 28429555677, 75075952540),
  (8236, 622250515902, 1497785352700), (7054, 53177810740, 38846515523820),
  (6567, 348657341701, 3542472265210), (9011, 494919626910, 20863322899200),
  (8980, 8138173719, 28808069400530), (6421, 332905264657, 136154670584420),
  (6489, 289389587598, 11413847448250), (6244, 54973852782, 6522037101170),
  (6154, 267885860584, 200144399215820), (6742, 23586769279, 807675484730),
  (7297, 485321224483, 22286032299360), (6302, 380651124694, 178814489672020),
  (5824, 439327457448, 8175213321620), (6102, 88585782895, 9204707395470),
  (6914, 204631426723, 9916062095550), (5363, 547995103139, 56363121503840),
  (5172, 211968421583, 21426230328450), (5117, 576987684107, 56511568774670),
  (6197, 162553688800, 158907289528380), (4970, 41949366126, 7626607127560),
  (6640, 582582210639, 48322054217860), (5277, 457975789757, 13458534360760),
  (4974, 420243895902, 40450679034820), (5150, 467582673243, 21233588759150),
  (4764, 459303997414, 55406998748280), (4573, 324875415786, 23145834270270),
  (4811, 46206327592, 36286229257260), (5148, 333570646174, 148447270830),
  (4654, 580233066659, 21796496188400), (4509, 537581684215, 49744763618020),
  (4443, 11349392292, 29505122865420), (4943, 378020789259, 126556747862640),
  (4211, 488306021960, 9889998852460), (4252, 500120115113, 21334727954780),
  (4774, 453259894142, 114824761040620), (3911, 58582192963, 75010360753340),
  (5069, 220305668335, 20788246946660), (3553, 35374030841, 33365734504400),
  (3771, 98542435766, 2437902238820), (3458, 184990273999, 22582926841020),
  (3401, 531342401626, 34788443904560), (3347, 21414641376, 63596513305090),
  (3637, 161315058382, 24554242435240), (3416, 219551489078, 157484580128220),
  (3655, 80544245690, 34321857259960), (4260, 180258750109, 21325091132820),
  (3110, 303815175282, 167793857550080), (3052, 133858964447, 54391805909620),
  (3694, 81606028298, 34470304530790), (3016, 336219319026, 786430652620),
  (2937, 486927342776, 14414657116320), (2768, 242707131609, 231783586181480),
  (3059, 430820099442, 606266320755260), (3650, 512802531219, 21892816973050),
  (2963, 353480751374, 210453676637680), (3230, 288057019783, 21621985674480),
  (2984, 252971310583, 169216566950240), (2897, 573256482240, 999287290377220),
  (2591, 379880285744, 1726547538740), (3495, 529902525443, 35033211960040),
  (2859, 372804950659, 607689030155420), (2775, 23549396237, 35744566660120),
  (2976, 248769315964, 4647042291600), (2487, 437868078530, 21749188113200),
  (2711, 515376840150, 1000709999777380), (3127, 192343235583, 1740848773930),
  (3181, 172419900322, 116958825140860), (2348, 77373103004, 41406801790380),
  (2606, 342836913440, 3101948863700), (2556, 91735028377, 47928838891550),
  (2399, 482440545738, 127979457262800), (2245, 376323995584, 42511371816770),
  (3020, 25310250109, 12035824960600), (2503, 210679832121, 16805251279940)]

/-- `vsop87d_dict.py` 21489-21588. -/
def saturnL1_2 : List (ℕ × ℕ × ℕ) := [
  (2564, 163158205055, 18227960680100), (2221, 315472373256, 21277783057620),
  (2357, 233145013714, 21871572140940), (2510, 451903989011, 19832124191100),
  (2715, 576330259543, 61855664531160), (2204, 335952557362, 16060889739850),
  (2648, 71962005233, 8582729883120), (2029, 528642331696, 12598732389850),
  (2497, 136671447252, 190546476494040), (2017, 111498225426, 44793883187840),
  (2052, 127587874735, 1401464568050), (2254, 322447674190, 27310284047830),
  (2014, 39787014152, 35893013930950), (1981, 233696859021, 2845418800320),
  (2197, 593386789705, 1333332212430), (2237, 364433751164, 21382036029980),
  (1930, 185671740340, 127202438720), (2037, 505300562628, 42415051032120),
  (1994, 135690802366, 2060692781950), (1911, 344106886717, 6915252427480),
  (1925, 375243031545, 2831117565130), (2297, 424557050896, 146463948006280),
  (2117, 225897766314, 11642609634290), (1847, 540631472802, 3149256938900),
  (1841, 156916484272, 65094298657790), (1884, 627233535258, 2512978191360),
  (1960, 489484014840, 27555052103310), (2016, 545791785675, 84215068148810),
  (2282, 496276947440, 25887574647670), (1709, 399098237135, 41630325013750),
  (2176, 746756006, 89377187730), (1634, 530978165487, 25143213107580),
  (1687, 41586020065, 5417467074780), (1910, 259825755790, 32972519178090),
  (2113, 256582292726, 5980374504030), (1921, 242279051938, 11338771495710),
  (1658, 547323651540, 107360902419080), (1590, 277545297350, 199433044515740),
  (1936, 347558926847, 158195934828300), (1649, 182779010589, 12895626931510),
  (1598, 171806465300, 12991947716160), (1967, 125160413795, 62173803904930),
  (1702, 191076102800, 27851946644970), (1569, 16491194947, 64307868005170),
  (1989, 528799230992, 50835032409220), (1520, 56950979689, 32032402291970),
  (1501, 199815894193, 189123767093880), (1532, 327362317849, 242092863603340),
  (1701, 272041261115, 76736908292080), (1561, 609424459628, 28096714700450),
  (1331, 420944443790, 54695644048200), (1381, 206768100830, 19269216761850),
  (1368, 628049502257, 179525844372100), (1519, 220299556153, 200855753915900),
  (1356, 401521042413, 72164941953020), (1296, 484815978742, 4557665103870),
  (1267, 528146654999, 17394221952280), (1402, 612951551550, 3935687591520),
  (1252, 219169926554, 263422773147140), (1466, 416354845643, 2682670294300),
  (1285, 376170874847, 228762186040), (1500, 541022492529, 21404985496340),
  (1396, 478595583428, 21944943459230), (1430, 70934745161, 25494359321360),
  (1195, 371281085322, 26450482076920), (1181, 42635230882, 4164449777560),
  (1190, 202079286787, 148598012106520), (1160, 523649231796, 18105576652360),
  (1535, 362746990294, 56118353448360), (1120, 109127922130, 659228213900),
  (1100, 27844612141, 18409414790940), (1227, 139969681270, 20910630974400),
  (1353, 612903657666, 20767002114550), (1124, 605105541765, 29126208774300),
  (1194, 479565407023, 147886657406440), (1082, 473602931755, 7871375183040),
  (1202, 347301104146, 5120572533120), (1298, 234761557822, 21037833413120),
  (1166, 420037524355, 41703696332040), (1228, 394985981275, 178103134971940),
  (1401, 241318931513, 63671589257630), (1009, 617414889934, 211165031337760),
  (1084, 368958647346, 27406604832480), (1068, 80258823981, 43689313161450),
  (1007, 342792508860, 62960234557550), (998, 557130056835, 20522234059070),
  (1058, 105742945779, 23767811782620), (1020, 333667290300, 16682867252200),
  (965, 608359503243, 60176425067620), (1005, 356310748091, 64382943957710),
  (987, 97129012811, 30534616939270), (927, 387717400791, 13533610313300),
  (1129, 594840103961, 19662432088160), (1118, 525415059584, 18972322220190),
  (1200, 116671933467, 222185663459700), (909, 214001565047, 61780588578620),
  (899, 231811625712, 31245971639350), (1081, 91006048421, 31321047591890),
  (891, 374923531791, 91693228005540), (886, 476066858907, 77693031047640)]

/-- `vsop87d_dict.py` 21589-21688. -/
def saturnL1_3 : List (ℕ × ℕ × ℕ) := [
  (912, 99592540858, 49181856188770), (880, 367349449376, 2527279426550),
  (1203, 139749267410, 33773251065900), (867, 11684071625, 26747376618580),
  (879, 612222682852, 86742347575360), (1080, 15038819285, 17516605980020),
  (988, 312456192471, 21478356814630), (889, 470508769146, 14807872442630),
  (827, 608977582217, 48884961647110), (889, 505124166027, 22046082654860),
  (828, 627262544155, 138288734684660), (1040, 576735098196, 50137978944330),
  (1103, 48706477230, 69258748435350), (810, 250362385080, 231072231481400),
  (850, 455410385197, 7796299230500), (1108, 531792012163, 23539049596580),
  (790, 89213206336, 34225536475310), (775, 285873930879, 21181462272970),
  (842, 299884993009, 273732050569000), (784, 5748459240, 54302428721890),
  (754, 518317747668, 24431858407500), (969, 131760425414, 48640193591630),
  (943, 548641674428, 33928641933650), (759, 625347177163, 15104766984290),
  (710, 241619968810, 24723934538180), (794, 259522645936, 164453140270),
  (857, 199318788624, 24872381809010), (717, 456798357445, 12125202148330),
  (671, 250955477476, 44475743814070), (683, 551033310275, 48736514376280),
  (684, 1892628603, 22827694896500), (665, 147172657769, 42756139872250),
  (761, 461079808671, 2357587323610), (807, 321513718120, 189835121793960),
  (645, 192436523628, 295061960112800), (624, 605830190539, 24161027108930),
  (699, 402804515616, 42563498302950), (624, 585966148394, 69651963761660),
  (620, 186426453489, 220762954059540), (641, 569868017561, 31957326339430),
  (646, 378920578728, 103804128918680), (672, 254160055954, 27140591944890),
  (768, 180484245332, 232494940881560), (737, 150539891226, 26843697403230),
  (836, 126583811010, 21254833591260), (753, 527536166240, 20470107572890),
  (633, 219920009577, 180237199072180), (720, 258587107868, 47217484191470),
  (683, 383223866420, 4328902917830), (740, 621601938401, 55651766803760),
  (795, 114460330178, 38135160823740), (678, 365930963429, 209742321937600),
  (568, 592158661090, 242804218303420), (570, 118024241664, 13154696222180),
  (566, 474157739398, 38012776796000), (586, 571168743146, 57074476203920),
  (550, 492413290959, 18892007304980), (712, 269456114358, 1667477455640),
  (545, 538725529600, 20623373254700), (572, 579167804981, 19589060769870),
  (602, 581756794592, 96340270297140), (588, 425026865253, 42664637498580),
  (563, 328295055824, 19365537546500), (583, 544099997963, 52650957135690),
  (679, 445748326743, 10554045477340), (516, 599843937287, 28956516671360),
  (520, 219322568805, 18016199464630), (543, 419333695628, 21318722085340),
  (586, 303470168346, 627596230299060), (572, 396788877624, 14000196957900),
  (611, 415392239870, 43615941843160), (505, 295739392583, 13554855145410),
  (587, 455320395537, 586359120611620), (492, 271595874382, 8493352695390),
  (576, 598300938454, 979380090233580), (489, 568450383182, 53362311835770),
  (519, 309688510923, 32743756992050), (486, 524220804875, 584936411211460),
  (475, 451295931678, 41162033734900), (540, 444843952768, 1020617199921020),
  (479, 87707794164, 20714875628370), (468, 46572028197, 30609692891810),
  (586, 86387928244, 253824850425360), (475, 619152982788, 39739324334740),
  (541, 147958133221, 4253826965290), (496, 607879620658, 57616138801060),
  (447, 259259132013, 722542158540), (445, 506827300470, 77841478318470),
  (560, 461017471, 22137585028530), (456, 460143715337, 71074673161820),
  (449, 579223649465, 68547393735270), (501, 191370965325, 83110498122420),
  (595, 490329839607, 82474219374880), (447, 488662794571, 42904587143080),
  (445, 174764943142, 52575881183150), (457, 80892712530, 45884151979040),
  (543, 260317945475, 21341097002260), (493, 61947189193, 4105379694460),
  (455, 269847252264, 305371237534660), (429, 389071982978, 9279783348010)]

/-- `vsop87d_dict.py` 21689-21788. -/
def saturnL1_4 : List (ℕ × ℕ × ℕ) := [
  (411, 134981168865, 2708733537390), (448, 184775051361, 98066817835880),
  (445, 421745990439, 90588657979150), (403, 233067250642, 262711418447060),
  (404, 500179215709, 43126405732200), (384, 165634584042, 24175328344120),
  (410, 76907037678, 39557870223900), (456, 198353741244, 21351154375910),
  (459, 204878772547, 28563301345050), (396, 504141834913, 29823262239190),
  (377, 568073822097, 274443405269080), (415, 441600504868, 17935884549420),
  (396, 429872851950, 20670681329900), (389, 569091953122, 84926422848890),
  (369, 136192003466, 83503713448730), (374, 41402282126, 977957380833420),
  (379, 172255764532, 18498791978670), (365, 588205574821, 1964371997300),
  (456, 481297899859, 21308664711690), (359, 106819138836, 20613736432740),
  (367, 114184327929, 56904784100980), (352, 304388401587, 63841281360570),
  (463, 155834877017, 42118156490460), (459, 534648461645, 69970103135430),
  (383, 405921035379, 73980866679490), (354, 109760553168, 73879727483860),
  (382, 5348541587, 25265597135320), (344, 118536656224, 43912836384820),
  (382, 210483762147, 53261172640140), (361, 50215018154, 5040257617910),
  (351, 349546336297, 135443315884340), (395, 426278871560, 43222726516850),
  (345, 238455893509, 42607692601420), (350, 151541607946, 25976951835400),
  (426, 529998227949, 93494851496820), (339, 559774645356, 51939602435610),
  (388, 340083809779, 241381508903260), (324, 368352014131, 7207328558160),
  (323, 179597508586, 40599126305650), (366, 356764349139, 111918567522950),
  (358, 411241839677, 3787240320690), (423, 145116702108, 264134127847220),
  (314, 68465789313, 75721715453420), (320, 312697568936, 94599421523210),
  (338, 489782013581, 89877303279070), (319, 576881401291, 6936497259590),
  (310, 535598720822, 81506334611420), (369, 446143610142, 42193232443000),
  (311, 219275640712, 585647765911540), (306, 299917010799, 113023137549340),
  (330, 64102961163, 55800214074590), (305, 40963115602, 66123792731640),
  (320, 329267319940, 76025553592000), (298, 548693246086, 70214871190910),
  (352, 218179692198, 211876386037840), (299, 594980651345, 57222923474750),
  (343, 262900083650, 21355972786890), (296, 412563821701, 7329712585900),
  (360, 294387423457, 221474308759620), (293, 571837797264, 6076695288680),
  (326, 193806509331, 48077286162380), (335, 260120542851, 51838463239980),
  (322, 289685459163, 42711945573780), (367, 220489848330, 51864526483070),
  (361, 331464351282, 63033605875840), (288, 87760478150, 88772733252680),
  (290, 24071300709, 70511765732570), (332, 596464701829, 10064509366380),
  (284, 158760551116, 68154178408960), (281, 168339116394, 326701147078460),
  (287, 354730637851, 75632338265690), (331, 274250642576, 2289454967990),
  (281, 479802388453, 40992341631960), (372, 108754087151, 42655000676620),
  (340, 59629116557, 62736711334180), (325, 407319450014, 51153171782990),
  (273, 71334827688, 30508553696180), (272, 176124839309, 94524345570670),
  (295, 400327005783, 43274853003030), (271, 528903262032, 108072257119160),
  (276, 389192411657, 61069233878540), (294, 280121651058, 72483081326790),
  (319, 524824059915, 22997386999440), (264, 236406383589, 73194436026870),
  (288, 467818844930, 17076082578510), (326, 381328980623, 52549817940060),
  (283, 352027709716, 31931263096340), (264, 25871603855, 49426624244250),
  (261, 408135671345, 2586349509650), (296, 449129913731, 69355069220000),
  (292, 65370180027, 2586749049913539), (292, 12510953311, 2588171759313700),
  (254, 403912322565, 99022940591440), (288, 398604904657, 70777778620160),
  (285, 192328297431, 313442687826260), (284, 245411523294, 312019978426100),
  (256, 363282757780, 43079097657000), (283, 251091647682, 28659622129700),
  (325, 433261281211, 73269511979410), (264, 5450228136, 65019222705250)]

/-- `vsop87d_dict.py` 21789-21888. -/
def saturnL1_5 : List (ℕ × ℕ × ℕ) := [
  (273, 490735780421, 40918970313670), (304, 461759348542, 46824268865160),
  (285, 572467903890, 3394024994380), (242, 528336514054, 40302231763990),
  (270, 51583145648, 26370167161710), (263, 481670787366, 105544977692610),
  (237, 292617048443, 91396333463880), (246, 219675150666, 294350605412720),
  (278, 458404840578, 39814400287280), (234, 264374114605, 73905790726950),
  (229, 380445074468, 5810682401090), (300, 206111081979, 42951895218280),
  (223, 339888651505, 18802630117250), (301, 296411385108, 62491943278700),
  (221, 179137414078, 252402141025200), (220, 95686592581, 189441906467650),
  (225, 430669421945, 63744960575920), (214, 170442143644, 65805653357870),
  (227, 322613053351, 63893407846750), (220, 266798936385, 95310776223290),
  (253, 309377787768, 2920494752860), (244, 315828383212, 700167241620),
  (295, 495843934543, 71467888488130), (209, 94525938634, 86424208201590),
  (216, 12221236180, 2857180808220), (214, 280190604605, 37390799283650),
  (212, 207343849515, 135761455258110), (216, 125531205533, 47780391620720),
  (206, 535971491902, 306082592234740), (204, 308579410460, 6766805156650),
  (210, 191489853604, 93812990870590), (209, 146554109301, 95235700270750),
  (202, 357670882297, 33455111692130), (228, 566209641464, 169927921650320),
  (197, 461055255182, 46473122651380), (193, 424606721746, 14169889060840),
  (266, 69665031373, 285464037391020), (227, 131845358943, 23070758317730),
  (192, 526739976413, 50456118318100), (187, 85537192230, 27385360000370),
  (199, 391291687807, 41852143602870), (192, 615674105214, 61144309831080),
  (210, 147873602747, 20543478891180), (194, 237167703302, 337010424500320),
  (228, 215266015145, 5513787859430), (201, 271380671608, 58631331639720),
  (194, 329560033731, 167082502850000), (201, 423447633663, 149309366806600),
  (181, 361567262848, 978668735533500), (181, 283211558346, 126238608488870),
  (242, 469869158516, 114113406340540), (184, 466807336402, 125134038462480),
  (221, 225887876254, 35574874557180), (200, 117340443616, 495206359328620),
  (222, 223360866067, 243515573003500), (175, 4701598422, 10775864066460),
  (171, 502500742690, 9353154666300), (184, 519723697138, 83578789401270),
  (221, 449141283681, 91300012679230), (195, 92088046109, 55103160609700),
  (166, 501778115937, 35499798604640), (165, 226267552932, 40695447090300),
  (189, 31221126958, 42096911658350), (196, 270333585839, 77448262992160),
  (176, 612029409039, 18180652604900), (172, 194132177757, 325989792378380),
  (160, 55319954265, 542987946823940), (161, 288623631474, 18484490743480),
  (192, 26639534884, 29519424100610), (167, 371345214172, 105620053645150),
  (195, 483926717598, 159618644228460), (156, 281916058733, 42808266358430),
  (215, 188276472005, 22036445832900), (167, 268872854428, 42367742956920),
  (154, 166553954375, 11562294719080), (175, 20216461467, 38405992122310),
  (201, 438095931887, 41800017116690), (167, 186485857353, 39346109008430),
  (155, 92480392431, 28266406803390), (146, 197663966745, 936008916445900),
  (160, 262483919699, 35330106501700), (186, 137307151419, 29201284726840),
  (198, 115631374887, 295773314812880), (144, 482956915076, 45342489381900),
  (149, 360682821788, 20566428357540), (147, 448377791879, 8189514556810),
  (147, 574795037748, 85637777548970), (142, 353823120158, 21202707105080),
  (140, 70476909062, 64086049416050), (139, 139047667205, 126163532536330),
  (153, 329559426243, 39117346822390), (158, 179872341304, 32668681039510),
  (174, 398677435872, 104908698945070), (171, 416825100469, 21303846300710),
  (133, 474095454922, 4818410980), (155, 532313618730, 201567108615980),
  (158, 267557086253, 253113495725280), (158, 464622526567, 42734895040140),
  (123, 220103444636, 21059078245230), (160, 185888551524, 20151968199120)]

/-- `vsop87d_dict.py` 21889-21930. -/
def saturnL1_6 : List (ℕ × ℕ × ℕ) := [
  (119, 312572799769, 23857188970350), (120, 462897224203, 20326478713040),
  (129, 492592016162, 128690811962880), (132, 344682160054, 15667674413540),
  (143, 67951827513, 42584743135060), (114, 546519773276, 55258551477450),
  (132, 176335093671, 43201481684740), (113, 68933513038, 45097721326420),
  (128, 213986068877, 275154759969160), (123, 459695145319, 21600740842370),
  (119, 104688666457, 46202291352810), (108, 536873170289, 337721779200400),
  (142, 624626256472, 29912639426920), (118, 63448253510, 36997583957340),
  (105, 231570619675, 20055647414470), (124, 187110815140, 85001498801430),
  (106, 55623662570, 11439910691340), (102, 395315219638, 36137781986430),
  (95, 410658529323, 1021328554621100), (97, 113534710734, 38724131496080),
  (96, 446689094543, 40132539661050), (119, 233636675091, 31883955021140),
  (115, 337508073115, 31394418910180), (106, 373586211650, 22093390730060),
  (90, 59788492023, 22731374111850), (103, 509172929383, 21345915413240),
  (97, 595268532215, 104440407666220), (103, 170625660572, 21313903674360),
  (80, 86872596168, 23390602325750), (89, 535990932230, 21419286731530),
  (80, 269565238975, 54073666535850), (95, 119504849611, 46053844081980),
  (105, 58624363205, 48173606947030), (99, 268841109007, 21989137757700),
  (98, 159923557478, 48470501488690), (81, 112279793521, 42044785172170),
  (75, 458892231446, 39435486196160), (99, 468895851750, 44868959140380),
  (76, 166929798365, 19603362005060), (87, 312477195090, 85712853501510),
  (78, 559819387460, 36434676528090), (79, 353267171729, 96962247809490)]

/-- `vsop87d_dict.py` 21288-21931. -/
def saturnL1 : List (ℕ × ℕ × ℕ) := List.flatten [
  saturnL1_0, saturnL1_1, saturnL1_2, saturnL1_3, saturnL1_4, saturnL1_5, saturnL1_6]

/-- `vsop87d_dict.py` 21933-22032. -/
def saturnL2_0 : List (ℕ × ℕ × ℕ) := [
  (116441181, 117987850633, 711354700080), (91920844, 7425261094, 21329909543800),
  (90592251, 0, 0), (15276909, 406492007503, 20618554843720),
  (10631396, 25778277414, 22041264243880), (10604979, 540963595885, 42659819087600),
  (4265368, 104595556630, 1422709400160), (1215527, 291860042123, 10309277421860),
  (1164684, 460942128971, 63989728631400), (1081967, 569130351670, 43371173787680),
  (1020079, 63369182642, 318139373770), (1044754, 404206453611, 19907200143640),
  (633582, 438825410036, 41948464387520), (549329, 557303134242, 393215326310),
  (456914, 126840971349, 11020632121940), (425100, 20935499279, 22752618943960),
  (273739, 428841011784, 9597922721780), (161571, 138139149420, 1104570026390),
  (129494, 156586884170, 30927832265580), (117008, 388120915956, 85319638175200),
  (105415, 490003203599, 64701083331480), (100967, 89270493100, 2134064100240),
  (95227, 562561150598, 41237109687440), (81948, 102477558315, 11731986822020),
  (74857, 476178468163, 21011770170030), (82727, 605030934786, 21648048917570),
  (95659, 291093561539, 31639186965660), (63696, 35179804917, 32350541665740),
  (84860, 573472777961, 20936694217490), (60647, 487517850190, 63278373931320),
  (66459, 48297940601, 1029494073850), (67184, 45648612616, 52257741809380),
  (53281, 274730541387, 52969096509460), (45827, 569296621745, 44082528487760),
  (45293, 166856699796, 20225339517410), (42330, 570768187703, 8886568021700),
  (32140, 7050050346, 6373589830340), (31573, 167190022213, 30216477565500),
  (31150, 416379537691, 19195845443560), (24631, 565564728570, 73587651353180),
  (26558, 83256214407, 22434479570190), (20108, 594364609981, 21723124870110),
  (17511, 490014736798, 62567019231240), (17130, 162593421274, 74299006053260),
  (13744, 376497167300, 19513984817330), (12236, 471789723976, 20300415469950),
  (11940, 12620714199, 23463973644040), (16040, 57886320845, 51546387109300),
  (11154, 592216844780, 53680451209540), (14068, 20675293700, 83896928775040),
  (11013, 560207982774, 72876296653100), (11718, 312098483554, 84608283475120),
  (9962, 415472049127, 86030992875280), (10601, 320327613035, 106649547719000),
  (10072, 25709351996, 33061896365820), (9490, 46379969328, 95628915597060),
  (10240, 498736656070, 42266603761290), (8287, 213990364272, 26992144674060),
  (7238, 539724715258, 105226838318840), (7730, 524602742309, 42977958461370),
  (6353, 446211130731, 28414854074220), (5935, 540967847103, 14956319713460),
  (7550, 403401153929, 956122755560), (5779, 429380891110, 41555249061210),
  (6082, 593416924841, 40525754987360), (5711, 1824076994, 12443341522100),
  (5676, 602235682150, 22359403617650), (4757, 492804854717, 65412438031560),
  (4727, 227461984667, 1815924726470), (4509, 440688707557, 94206206196900),
  (5621, 29694719379, 12747179660680), (5453, 553868222772, 94917560896980),
  (4130, 468673560379, 7478159856730), (4098, 530851262200, 104515483618760),
  (4223, 289014939299, 5662235130260), (4887, 320022991216, 27703499374140),
  (3905, 330270187305, 49033408917940), (3923, 609732996823, 8175213321620),
  (3755, 493065184796, 5269019803950), (4602, 613908576681, 115536115740700),
  (3714, 40648076787, 13703302416240), (3407, 428514461015, 9991138048090),
  (3579, 20402442077, 127268102562720), (3946, 36500928968, 1253017297220),
  (3246, 156761884227, 105938193018920), (4063, 29084229143, 83185574074960),
  (3688, 15467406177, 43764389113990), (2895, 313473183482, 7084944530420),
  (2800, 32727938074, 19120769491020), (2672, 187612402267, 29505122865420),
  (3454, 477197610696, 42341679713830), (2623, 515237415384, 136866025284500),
  (2457, 389612890177, 21085141488320), (2461, 158522876760, 3224332891440),
  (2595, 359007068361, 13140394986990), (2289, 476825865118, 35181659230870),
  (2357, 583099000562, 10627416795630), (2221, 598277491515, 606266320755260),
  (2221, 205930402282, 607689030155420), (2183, 594985336393, 14563104387150)]

/-- `vsop87d_dict.py` 22033-22132. -/
def saturnL2_1 : List (ℕ × ℕ × ℕ) := [
  (2718, 337801252354, 40843894361130), (2288, 314000619320, 2209140052780),
  (2090, 112304173562, 999287290377220), (2089, 348276230686, 1000709999777380),
  (2570, 512167203704, 26598929347750), (1835, 415379879659, 125845393162560),
  (1820, 505340615445, 136154670584420), (1760, 413532689228, 10702492748170),
  (1921, 451790997496, 13851749687070), (1707, 135864593280, 23145834270270),
  (1956, 587006093798, 147175302706360), (2133, 523409848720, 126556747862640),
  (1595, 561962698786, 44793883187840), (1609, 374893709671, 62885158605010),
  (1490, 48352404940, 34077089204480), (1560, 597095003614, 43053034413910),
  (1352, 71405348653, 2845418800320), (1355, 291219493604, 21574677599280),
  (1298, 584254169775, 54391805909620), (1664, 623834873469, 114824761040620),
  (1205, 283373725021, 20076892246580), (1192, 352219428945, 49744763618020),
  (1122, 260571030270, 127979457262800), (1217, 623528359211, 158907289528380),
  (1420, 85079202155, 606977675455340), (1120, 495656566453, 168505212250160),
  (1010, 339689646619, 107360902419080), (1352, 227575429523, 999998645077300),
  (979, 158571463442, 137577379984580), (1159, 71823181781, 50835032409220),
  (1014, 240759054741, 70363318461740), (956, 266256831556, 13458534360760),
  (1110, 119713920197, 61855664531160), (945, 468155456977, 36286229257260),
  (953, 420749172571, 28808069400530), (1033, 108781255146, 18484490743480),
  (942, 243465223460, 22286032299360), (909, 451769385360, 3813303563780),
  (1002, 138543153271, 48322054217860), (1082, 452832816548, 63596513305090),
  (1008, 491325851448, 75010360753340), (862, 479998518474, 167793857550080),
  (828, 221940849017, 33365734504400), (745, 397279299984, 157484580128220),
  (903, 558963782799, 178814489672020), (735, 228191723259, 116247470440780),
  (773, 582270096882, 41630325013750), (734, 235356586018, 12035824960600),
  (745, 484266000843, 7626607127560), (765, 250840146722, 34321857259960),
  (908, 501046293458, 158195934828300), (707, 366631544506, 34788443904560),
  (870, 77106152694, 11338771495710), (686, 288543836068, 9204707395470),
  (673, 375650667651, 20373786788240), (656, 377718582702, 21796496188400),
  (675, 562875135263, 1726547538740), (691, 21330089609, 9916062095550),
  (786, 449318079175, 64307868005170), (641, 67588390141, 4647042291600),
  (663, 574837848383, 72164941953020), (809, 594893988352, 146463948006280),
  (638, 486195439622, 35744566660120), (740, 600053422445, 33773251065900),
  (555, 495858934298, 35893013930950), (581, 387669679805, 56511568774670),
  (541, 122296838713, 6225142559510), (697, 715950269, 116958825140860),
  (524, 153830423608, 19589060769870), (518, 541992758537, 31219908396260),
  (626, 526580317026, 43689313161450), (537, 617031657600, 18227960680100),
  (574, 598607898826, 190546476494040), (541, 30589337713, 9889998852460),
  (603, 326888470585, 20863322899200), (504, 380930996688, 16805251279940),
  (477, 356642391994, 56363121503840), (511, 470719837179, 200144399215820),
  (475, 106025557585, 585647765911540), (540, 87230551412, 169216566950240),
  (454, 248128029368, 978668735533500), (456, 318303484133, 21892816973050),
  (462, 71358186864, 25887574647670), (424, 489778948357, 63671589257630),
  (537, 259376221736, 31321047591890), (410, 422147787617, 86742347575360),
  (408, 306057772788, 42415051032120), (407, 379376013938, 2437902238820),
  (569, 368547825941, 35033211960040), (404, 91401255827, 11413847448250),
  (395, 350478374207, 12991947716160), (395, 286309689622, 21233588759150),
  (386, 500762729432, 38846515523820), (393, 626835522096, 24175328344120),
  (401, 460258908692, 199433044515740), (385, 91582119643, 16060889739850),
  (467, 54876489832, 40450679034820), (368, 35674031808, 21426230328450),
  (471, 67360047481, 20788246946660), (379, 92901327825, 76736908292080)]

/-- `vsop87d_dict.py` 22133-22232. -/
def saturnL2_2 : List (ℕ × ℕ × ℕ) := [
  (420, 569797398044, 22582926841020), (356, 310092792842, 84215068148810),
  (428, 535375368944, 210453676637680), (422, 267975581832, 7796299230500),
  (370, 546144813372, 103804128918680), (379, 556429091578, 13154696222180),
  (441, 568196668399, 178103134971940), (361, 520616019966, 62960234557550),
  (341, 592928351979, 2682670294300), (419, 526851686707, 8582729883120),
  (322, 80223983857, 628307584999140), (323, 386700993914, 57616138801060),
  (321, 217186032970, 1021328554621100), (355, 280560859177, 34470304530790),
  (311, 377477255556, 189123767093880), (318, 522020784209, 14244965013380),
  (315, 52272202855, 584936411211460), (428, 463722058283, 189835121793960),
  (337, 68198429948, 4557665103870), (316, 54074780109, 44475743814070),
  (310, 141032075652, 27310284047830), (311, 353744556230, 25143213107580),
  (295, 193253015677, 43615941843160), (296, 197705648834, 977957380833420),
  (326, 367854047003, 96340270297140), (389, 576841276132, 3935687591520),
  (277, 573995694175, 9279783348010), (315, 496371610197, 75721715453420),
  (295, 181638833900, 149309366806600), (287, 97698377929, 68547393735270),
  (281, 266463042095, 128690811962880), (330, 579776922760, 65094298657790),
  (292, 397858181479, 47217484191470), (266, 413716111320, 60176425067620),
  (262, 91887592474, 24554242435240), (278, 308964256591, 77841478318470),
  (277, 308750916880, 62173803904930), (255, 393981592051, 18105576652360),
  (333, 204835822938, 56118353448360), (247, 292754257675, 21944943459230),
  (306, 36127922606, 82474219374880), (253, 180130756458, 564317856367740),
  (337, 497764462199, 17516605980020), (273, 66599369335, 200855753915900),
  (227, 487285356383, 66123792731640), (249, 314202895058, 14414657116320),
  (220, 393526603081, 31957326339430), (212, 585248164087, 54695644048200),
  (234, 165314711167, 55406998748280), (204, 88373842674, 3149256938900),
  (205, 293169866171, 159618644228460), (201, 336504567824, 108072257119160),
  (224, 434612745705, 138288734684660), (192, 513697232918, 32972519178090),
  (208, 308549771485, 4164449777560), (236, 7998742860, 114113406340540),
  (203, 413011580915, 262711418447060), (203, 13969067385, 148598012106520),
  (204, 338137545713, 69970103135430), (212, 452370676085, 231072231481400),
  (218, 579277335862, 222185663459700), (213, 50441377637, 93494851496820),
  (210, 504017633795, 242092863603340), (214, 464286758581, 231783586181480),
  (178, 84588580004, 12836556848410), (170, 275006619605, 71074673161820),
  (171, 432615182967, 29126208774300), (172, 346971306920, 50137978944330),
  (170, 105408992106, 52650957135690), (162, 115683042950, 51939602435610),
  (180, 496266204107, 167082502850000), (172, 165385549578, 91693228005540),
  (170, 230821101766, 42904587143080), (170, 598716489326, 64382943957710),
  (173, 519933564968, 135443315884340), (195, 450165508529, 221474308759620),
  (156, 416290662749, 57222923474750), (153, 123776248578, 241381508903260),
  (150, 63076983213, 147886657406440), (169, 428090123029, 30534616939270),
  (174, 623077892653, 338433133900480), (149, 313274908516, 957338825989700),
  (162, 625601818345, 21325091132820), (149, 481749019484, 94599421523210),
  (162, 88610129190, 21621985674480), (133, 231915371262, 15667674413540),
  (165, 606456216591, 73269511979410), (141, 614293754333, 179525844372100),
  (133, 6530337135, 21871572140940), (162, 317058130506, 21334727954780),
  (125, 207143636845, 42511371816770), (146, 188627500632, 21181462272970),
  (113, 279541965778, 23539049596580), (117, 76464798684, 47928838891550),
  (108, 395650672786, 57074476203920), (106, 12820734703, 18802630117250),
  (134, 358244908862, 84926422848890), (114, 25990388555, 39814400287280),
  (112, 239181495831, 21749188113200), (91, 250716605179, 12125202148330)]

/-- `vsop87d_dict.py` 22233-22253. -/
def saturnL2_3 : List (ℕ × ℕ × ℕ) := [
  (91, 175367948574, 21382036029980), (88, 526121947108, 39557870223900),
  (96, 398832609364, 28956516671360), (91, 35318362186, 31245971639350),
  (112, 114387590923, 180237199072180), (82, 373605217214, 20767002114550),
  (82, 606283262812, 21037833413120), (84, 334470673492, 6766805156650),
  (86, 273917300180, 586359120611620), (83, 281499116485, 77693031047640),
  (91, 126160093170, 21277783057620), (90, 208722491981, 211165031337760),
  (80, 213136842916, 42193232443000), (82, 416358350281, 979380090233580),
  (77, 296973341607, 43126405732200), (79, 342790361067, 41703696332040),
  (79, 318693585419, 32032402291970), (80, 78975763683, 20470107572890),
  (77, 189354243952, 55651766803760), (73, 485923277221, 211876386037840),
  (71, 364551577433, 19832124191100)]

/-- `vsop87d_dict.py` 21932-22254. -/
def saturnL2 : List (ℕ × ℕ × ℕ) := List.flatten [
  saturnL2_0, saturnL2_1, saturnL2_2, saturnL2_3]

/-- `vsop87d_dict.py` 22256-22355. -/
def saturnL3_0 : List (ℕ × ℕ × ℕ) := [
  (16038734, 573945377424, 711354700080), (4249793, 458539675603, 21329909543800),
  (1906524, 476082050205, 22041264243880), (1465687, 591326678323, 20618554843720),
  (1162041, 561973132428, 1422709400160), (1066581, 360816533142, 42659819087600),
  (239377, 386088273439, 43371173787680), (236975, 576826451465, 19907200143640),
  (165641, 511641150216, 318139373770), (131409, 474327544615, 22752618943960),
  (151352, 273594641861, 63989728631400), (61630, 474287052463, 10309277421860),
  (63365, 22850089497, 41948464387520), (40437, 547298059144, 2134064100240),
  (40205, 596420266720, 9597922721780), (38746, 583386199529, 11020632121940),
  (28025, 301235311514, 64701083331480), (25029, 98808170740, 393215326310),
  (18101, 102506397063, 41237109687440), (17879, 331913418974, 30927832265580),
  (16208, 389825272754, 44082528487760), (15763, 561667809625, 11731986822020),
  (19014, 191614237463, 85319638175200), (18262, 496738415934, 1029494073850),
  (12947, 118068953942, 8886568021700), (17919, 420376505349, 21648048917570),
  (11453, 557520615096, 1104570026390), (10548, 592906266269, 19195845443560),
  (10389, 394838736947, 20936694217490), (8650, 339335369698, 30216477565500),
  (7580, 487736913157, 32350541665740), (6697, 38198725552, 63278373931320),
  (5864, 105621157685, 21011770170030), (5449, 464268475485, 23463973644040),
  (6327, 225492722762, 52257741809380), (3602, 230677010956, 51546387109300),
  (3229, 220309400066, 86030992875280), (3701, 314159265359, 0),
  (2583, 493447677059, 22434479570190), (2543, 42393884183, 62567019231240),
  (2213, 319814958289, 20225339517410), (2421, 476621391814, 33061896365820),
  (2850, 58604395010, 52969096509460), (1965, 439525359412, 12443341522100),
  (2154, 135488209144, 40525754987360), (2296, 334809165905, 42977958461370),
  (2018, 306693569701, 65412438031560), (1979, 102981005658, 72876296653100),
  (1868, 309383546177, 42266603761290), (1846, 415225985450, 53680451209540),
  (2194, 118918501013, 106649547719000), (2090, 415631351317, 22359403617650),
  (1481, 37916705169, 31639186965660), (1720, 582865773356, 19513984817330),
  (1460, 157663426355, 8175213321620), (1623, 603706764648, 74299006053260),
  (1286, 166154726117, 6373589830340), (1304, 502409881054, 95628915597060),
  (1446, 210575519127, 83896928775040), (1245, 388109752770, 26992144674060),
  (1018, 372599601656, 29505122865420), (1323, 138492882986, 73587651353180),
  (1318, 233460998999, 21723124870110), (943, 275813531246, 28414854074220),
  (906, 71155526266, 84608283475120), (886, 383754799777, 44793883187840),
  (943, 331480217015, 1815924726470), (800, 471386673963, 5662235130260),
  (908, 202119147951, 83185574074960), (787, 80410269937, 104515483618760),
  (709, 427064410504, 43764389113990), (651, 617565900032, 94206206196900),
  (785, 240767785311, 20300415469950), (702, 164585301418, 42341679713830),
  (543, 286326941725, 18484490743480), (532, 625762144463, 105938193018920),
  (521, 343013038466, 14956319713460), (484, 488366060720, 127268102562720),
  (437, 540220619672, 40843894361130), (388, 257589594168, 50835032409220),
  (421, 405836524024, 54391805909620), (375, 122747948298, 232494940881560),
  (347, 59237194522, 2209140052780), (433, 169090148012, 115536115740700),
  (389, 146170367972, 107360902419080), (307, 182185086955, 62885158605010),
  (409, 121858750514, 105226838318840), (309, 33610530663, 607689030155420),
  (309, 142279282226, 606266320755260), (340, 183325770310, 114113406340540),
  (303, 241584747330, 12747179660680), (305, 534154702988, 13140394986990),
  (298, 228594631393, 63596513305090), (372, 103723911390, 31321047591890),
  (338, 69100012338, 136154670584420), (325, 178816356937, 114824761040620),
  (322, 118628805010, 72164941953020), (271, 245663156460, 41555249061210),
  (251, 312046701975, 138288734684660), (254, 300353256829, 61855664531160)]

/-- `vsop87d_dict.py` 22356-22403. -/
def saturnL3_1 : List (ℕ × ℕ × ℕ) := [
  (295, 35280179538, 273020695868920), (242, 152154324392, 7084944530420),
  (296, 89576757167, 210453676637680), (264, 300987438634, 66123792731640),
  (267, 31623829657, 167793857550080), (270, 256774718753, 64307868005170),
  (261, 155058302472, 145752593306200), (246, 229214585472, 86742347575360),
  (269, 318157515051, 75010360753340), (272, 112208982319, 178814489672020),
  (256, 37673546414, 127979457262800), (206, 181129778306, 49744763618020),
  (251, 61933213502, 241381508903260), (237, 335941544147, 43689313161450),
  (247, 10102936687, 9991138048090), (247, 93125798111, 5269019803950),
  (221, 207880035795, 82474219374880), (197, 616682223437, 125845393162560),
  (229, 557917534840, 294350605412720), (227, 43324651601, 273732050569000),
  (203, 412623986247, 33773251065900), (214, 357607524509, 93494851496820),
  (212, 125688162158, 177391780271860), (215, 88867647880, 103804128918680),
  (244, 551572084570, 23145834270270), (181, 213821830481, 41630325013750),
  (210, 419139167658, 222185663459700), (178, 291685344537, 7478159856730),
  (201, 46214583002, 285464037391020), (236, 464388694899, 190546476494040),
  (199, 154991619669, 147175302706360), (199, 70725247497, 242092863603340),
  (162, 251488345020, 43053034413910), (160, 123508694599, 159618644228460),
  (175, 414605894816, 209030967237520), (152, 5796022559, 3224332891440),
  (176, 129002070623, 49033408917940), (154, 360622857548, 65094298657790),
  (185, 474969742128, 31957326339430), (154, 154587199996, 146463948006280),
  (108, 425125786500, 14563104387150), (106, 104047809351, 116247470440780),
  (114, 264055737100, 36286229257260), (93, 336746275886, 48322054217860),
  (91, 205796248692, 21085141488320), (91, 453336314765, 24175328344120),
  (72, 374361312157, 148598012106520), (76, 333892447677, 19589060769870)]

/-- `vsop87d_dict.py` 22255-22404. -/
def saturnL3 : List (ℕ × ℕ × ℕ) := List.flatten [
  saturnL3_0, saturnL3_1]

/-- `vsop87d_dict.py` 22406-22473. -/
def saturnL4_0 : List (ℕ × ℕ × ℕ) := [
  (1661894, 399826248978, 711354700080), (257107, 298436499013, 22041264243880),
  (236344, 390241428075, 1422709400160), (149418, 274110824208, 21329909543800),
  (109598, 151515739251, 20618554843720), (113953, 314159265359, 0),
  (68390, 172120953337, 42659819087600), (37699, 123795458356, 19907200143640),
  (40060, 204644897412, 43371173787680), (31219, 301094184090, 22752618943960),
  (15111, 82897064529, 63989728631400), (9444, 371485300868, 2134064100240),
  (5690, 241995290633, 41948464387520), (4470, 145120818748, 9597922721780),
  (5608, 115607095740, 64701083331480), (4463, 211783225176, 44082528487760),
  (3229, 409278077834, 11020632121940), (2871, 277203153866, 41237109687440),
  (2796, 300730249564, 8886568021700), (2638, 255721254, 85319638175200),
  (2574, 39246854091, 10309277421860), (1862, 507955457727, 30927832265580),
  (2225, 377689198137, 11731986822020), (1769, 519176876406, 30216477565500),
  (1921, 282884328662, 23463973644040), (1805, 223816036743, 21648048917570),
  (1211, 154685246534, 19195845443560), (765, 344501766503, 32350541665740),
  (763, 483197222448, 21011770170030), (613, 419052656353, 51546387109300),
  (648, 228591710303, 20936694217490), (616, 403194472161, 52257741809380),
  (630, 237952532019, 63278373931320), (639, 29772678242, 86030992875280),
  (559, 217110060530, 12443341522100), (442, 223500083592, 44793883187840),
  (407, 544515970990, 106649547719000), (469, 126889429317, 65412438031560),
  (488, 320329778617, 40525754987360), (415, 312435410343, 33061896365820),
  (442, 338933498625, 8175213321620), (332, 412464206608, 83896928775040),
  (320, 318332026736, 52969096509460), (312, 140962796637, 42977958461370),
  (291, 318885372262, 146463948006280), (333, 294355912397, 72876296653100),
  (235, 367049647573, 114824761040620), (286, 257895004576, 104515483618760),
  (223, 357980034401, 115536115740700), (261, 204564143519, 167793857550080),
  (218, 261967125327, 53680451209540), (262, 248322150677, 62567019231240),
  (191, 439064160974, 157484580128220), (176, 126161895188, 42266603761290),
  (190, 232693171200, 22359403617650), (185, 108713469614, 74299006053260),
  (168, 69946458053, 82474219374880), (177, 502663339078, 20300415469950),
  (218, 40426546037, 86742347575360), (178, 367593243311, 83185574074960),
  (175, 575326979098, 107360902419080), (156, 302120117572, 178103134971940),
  (148, 228313808274, 29505122865420), (150, 348436135302, 95628915597060),
  (152, 191404443241, 94206206196900), (146, 616519696640, 31639186965660),
  (96, 293247663741, 22434479570190), (88, 448383632427, 42341679713830)]

/-- `vsop87d_dict.py` 22405-22474. -/
def saturnL4 : List (ℕ × ℕ × ℕ) := saturnL4_0

/-- `vsop87d_dict.py` 22476-22502. -/
def saturnL5_0 : List (ℕ × ℕ × ℕ) := [
  (123615, 225923345732, 711354700080), (34190, 216250652689, 1422709400160),
  (27546, 119868150215, 22041264243880), (5818, 121584270184, 22752618943960),
  (5318, 23550400093, 43371173787680), (3677, 622669694355, 42659819087600),
  (3057, 297372046322, 19907200143640), (2861, 428710932685, 20618554843720),
  (1617, 625265362286, 21329909543800), (1279, 527612561266, 63989728631400),
  (932, 556741549127, 64701083331480), (756, 617716234487, 19195845443560),
  (760, 69475544472, 30216477565500), (1038, 23516951637, 44082528487760),
  (1007, 314159265359, 0), (549, 487733288264, 8886568021700),
  (504, 477955496203, 41948464387520), (346, 431847547394, 85319638175200),
  (392, 569922389094, 65412438031560), (242, 205052677361, 32350541665740),
  (266, 111384528244, 23463973644040), (199, 88505901097, 30927832265580),
  (258, 510074489186, 9597922721780), (166, 240063312194, 51546387109300),
  (155, 470433216164, 86030992875280), (89, 136371070380, 41237109687440),
  (102, 49450039082, 11731986822020)]

/-- `vsop87d_dict.py` 22475-22503. -/
def saturnL5 : List (ℕ × ℕ × ℕ) := saturnL5_0

/-- `vsop87d_dict.py` 20133-22504 `_planets[("Saturn", "L")]`. -/
def saturnL : List (List (ℕ × ℕ × ℕ)) :=
  [saturnL0, saturnL1, saturnL2, saturnL3, saturnL4, saturnL5]

/-- `vsop87d_dict.py` 22507-22606. -/
def saturnB0_0 : List (ℕ × ℕ × ℕ) := [
  (4330678040, 360284428399, 21329909543800), (240348303, 285238489390, 42659819087600),
  (84745939, 0, 0), (30863357, 348441504465, 22041264243880),
  (34116063, 57297307844, 20618554843720), (14734070, 211846597870, 63989728631400),
  (9916668, 579003189405, 41948464387520), (6993564, 473604689179, 711354700080),
  (4807587, 543305315602, 31639186965660), (4788392, 496512927420, 11020632121940),
  (3432125, 273255752123, 43371173787680), (1506129, 601304536144, 10309277421860),
  (1060298, 563099292414, 52969096509460), (969071, 520434966103, 63278373931320),
  (942050, 139646678088, 85319638175200), (707645, 380302329547, 32350541665740),
  (552313, 513149109045, 20225339517410), (399675, 335891413961, 22752618943960),
  (316063, 199716764199, 64701083331480), (319380, 362571550980, 20936694217490),
  (284494, 488648481625, 22434479570190), (314225, 46510272410, 21723124870110),
  (236442, 213887472281, 1104570026390), (215354, 594982610103, 84608283475120),
  (208522, 212003893769, 41555249061210), (178958, 295361514672, 6373589830340),
  (207213, 73021462851, 19907200143640), (139140, 199821990940, 73587651353180),
  (134884, 524500819605, 74299006053260), (140585, 64417620299, 49033408917940),
  (121669, 311537140876, 52257741809380), (139240, 459535168021, 1422709400160),
  (115524, 310891547171, 21648048917570), (114218, 96261442133, 21011770170030),
  (96376, 448164339766, 11731986822020), (80593, 131692750150, 27703499374140),
  (72952, 305988482370, 53680451209540), (69261, 492378633635, 30927832265580),
  (74302, 289376539620, 14956319713460), (68040, 218002263974, 35181659230870),
  (61734, 67728106562, 106649547719000), (56598, 260963391288, 44082528487760),
  (48864, 578725874107, 9597922721780), (48243, 218211837430, 7478159856730),
  (38304, 529151303843, 105938193018920), (36323, 163348365121, 62885158605010),
  (35055, 171279210041, 105226838318840), (34270, 245740470599, 42266603761290),
  (34313, 597994514798, 41237109687440), (33787, 114073392951, 94917560896980),
  (31633, 414722153007, 43764389113990), (36833, 627769966148, 116247470440780),
  (26980, 127154816810, 86030992875280), (23516, 274936525342, 83896928775040),
  (23460, 98962849901, 21085141488320), (23600, 411386961467, 393215326310),
  (23631, 307427204313, 21574677599280), (20813, 351084686918, 33061896365820),
  (19509, 281857577372, 12747179660680), (17103, 389784279922, 21426230328450),
  (17635, 619715516746, 70363318461740), (17824, 228524493886, 38846515523820),
  (20935, 14356167048, 43053034413910), (16551, 166649120724, 3813303563780),
  (19100, 297699096081, 13703302416240), (15517, 454798410406, 95628915597060),
  (17065, 16611115812, 21233588759150), (14169, 48937283445, 21334727954780),
  (19027, 627326062836, 42341679713830), (13344, 237136126257, 42977958461370),
  (12565, 103178071173, 56363121503840), (14173, 357477564831, 21325091132820),
  (11374, 145300927024, 136866025284500), (10585, 617633425930, 20076892246580),
  (10600, 384358958373, 13851749687070), (10263, 217423692422, 7626607127560),
  (10072, 133197220789, 56511568774670), (12058, 44149242700, 22286032299360),
  (10367, 185278552549, 35033211960040), (8706, 258144528603, 115536115740700),
  (8470, 197890349826, 62567019231240), (8518, 451649648578, 318139373770),
  (7439, 492597321442, 21277783057620), (7409, 203506679104, 28808069400530),
  (8137, 398500592467, 8582729883120), (7985, 220794292064, 36286229257260),
  (6610, 614944028835, 41703696332040), (7753, 623664549070, 147886657406440),
  (6318, 187388481013, 65412438031560), (6319, 117328438271, 126556747862640),
  (5841, 235829915285, 75010360753340), (5808, 501602242794, 47928838891550),
  (8079, 42574715104, 55406998748280), (6014, 558952234348, 42511371816770),
  (7444, 541859596459, 21382036029980), (7567, 268446523795, 19120769491020),
  (7421, 419354269508, 956122755560), (5466, 321737829505, 23463973644040),
  (5661, 146982713550, 26598929347750), (5851, 481776629912, 148447270830)]

/-- `vsop87d_dict.py` 22607-22706. -/
def saturnB0_1 : List (ℕ × ℕ × ℕ) := [
  (5341, 345755372717, 20373786788240), (4960, 104628615559, 1253017297220),
  (4920, 385622235967, 17394221952280), (4883, 194823282939, 19513984817330),
  (5621, 81869581274, 5269019803950), (5200, 332827437636, 51546387109300),
  (4927, 381806549732, 22582926841020), (5033, 10756875163, 25265597135320),
  (4416, 545506938037, 40843894361130), (4169, 121145214135, 168505212250160),
  (4066, 624213578122, 127979457262800), (3972, 613850317719, 21749188113200),
  (5398, 567212179194, 137577379984580), (3916, 596105725915, 21037833413120),
  (4017, 99840226682, 84215068148810), (3899, 458983662507, 127268102562720),
  (3764, 330663337976, 21254833591260), (4345, 318562241830, 41406801790380),
  (3565, 475262007127, 20788246946660), (3542, 230814954338, 147175302706360),
  (3732, 161040235688, 63596513305090), (3709, 297082943086, 22359403617650),
  (3576, 383436862558, 48322054217860), (4053, 372105017218, 94206206196900),
  (3756, 74987556308, 21404985496340), (3162, 364550741000, 20767002114550),
  (3149, 227647454229, 72876296653100), (3971, 437874143597, 21621985674480),
  (3541, 562281936827, 21871572140940), (2965, 340117024932, 65094298657790),
  (3949, 419728912450, 20910630974400), (2853, 481077453523, 23145834270270),
  (2826, 86682282341, 21796496188400), (2970, 575162134301, 16060889739850),
  (2724, 47941267764, 49744763618020), (2787, 403144791896, 6225142559510),
  (2605, 504152791794, 6522037101170), (2652, 30602610654, 42415051032120),
  (2543, 276499056123, 54391805909620), (2485, 578396049817, 9916062095550),
  (3209, 42853440759, 21892816973050), (2509, 294704589100, 7084944530420),
  (2308, 63861650866, 25143213107580), (2869, 431959346745, 76736908292080),
  (2232, 56929937568, 107360902419080), (2245, 169945964547, 48884961647110),
  (2283, 155589787463, 60176425067620), (2384, 444583493310, 2134064100240),
  (2096, 577425542767, 8886568021700), (2363, 335786310868, 12443341522100),
  (2162, 624029269257, 179525844372100), (2452, 319804814047, 20863322899200),
  (2033, 487029603776, 32743756992050), (1950, 556004000293, 1815924726470),
  (2283, 422375355881, 2209140052780), (2217, 461433094630, 30216477565500),
  (1888, 545600788064, 14244965013380), (2075, 355622165076, 116958825140860),
  (2069, 275786819366, 49181856188770), (1810, 596568495526, 21318722085340),
  (1813, 139785500313, 21181462272970), (1843, 115001484281, 20300415469950),
  (1854, 141350087782, 158195934828300), (1697, 323613719814, 42756139872250),
  (1736, 545933992115, 91693228005540), (1714, 614729146384, 64382943957710),
  (1948, 570817363392, 42563498302950), (1770, 336194411768, 24872381809010),
  (1611, 97888081762, 200144399215820), (1971, 259654430358, 42904587143080),
  (1628, 74011617198, 17787437278590), (1564, 204342011485, 178814489672020),
  (1574, 601995224314, 42664637498580), (1939, 548134669380, 63671589257630),
  (1651, 461629429952, 62173803904930), (1552, 255542734908, 69258748435350),
  (1484, 617173980637, 5662235130260), (1782, 326122906302, 17516605980020),
  (1503, 259953333916, 22827694896500), (1559, 36281050773, 77693031047640),
  (1799, 346395976970, 125845393162560), (1521, 375588462293, 21351154375910),
  (1810, 437552745264, 21341097002260), (1521, 30214462385, 21308664711690),
  (1608, 466724132818, 26992144674060), (1525, 147939329423, 19832124191100),
  (1408, 138491846750, 50137978944330), (1327, 23760037979, 14807872442630),
  (1305, 241201772023, 27555052103310), (1578, 282443242444, 42655000676620),
  (1203, 136928065935, 23539049596580), (1296, 575203277385, 169216566950240),
  (1295, 304090959062, 83185574074960), (1283, 162400181159, 64307868005170),
  (1617, 131181209458, 21478356814630), (1346, 401262069353, 27851946644970),
  (1166, 9590019561, 34077089204480), (1115, 220460481017, 22137585028530),
  (1176, 107528227869, 31219908396260), (1107, 150329021421, 28956516671360)]

/-- `vsop87d_dict.py` 22707-22806. -/
def saturnB0_2 : List (ℕ × ℕ × ℕ) := [
  (1143, 440125874383, 21355972786890), (1253, 21632769953, 40450679034820),
  (1074, 317412275025, 9889998852460), (1103, 23626839162, 61780588578620),
  (1077, 351670933532, 31245971639350), (1039, 53953974796, 77841478318470),
  (1195, 211232088496, 20522234059070), (1093, 516243153571, 63033605875840),
  (1143, 593977485365, 21303846300710), (1040, 479631324365, 10627416795630),
  (1100, 2509241739, 21944943459230), (1311, 593900415785, 43615941843160),
  (1260, 72481995446, 35574874557180), (950, 200801292252, 104515483618760),
  (1186, 184906064486, 15104766984290), (974, 301092368346, 69651963761660),
  (924, 488158186437, 3935687591520), (961, 280113869315, 73879727483860),
  (1011, 627004359435, 12125202148330), (904, 415218356485, 42607692601420),
  (904, 424232505252, 1029494073850), (895, 247587956888, 44793883187840),
  (1186, 85270715988, 52549817940060), (824, 397540449663, 21059078245230),
  (831, 405299295705, 20714875628370), (937, 544353432307, 34470304530790),
  (823, 208766677969, 35893013930950), (971, 509512804595, 158907289528380),
  (1037, 104152859909, 244768055480), (816, 62175655307, 18892007304980),
  (798, 336396062989, 23767811782620), (755, 590983584858, 28414854074220),
  (870, 162765846893, 11413847448250), (734, 623523714922, 211165031337760),
  (767, 273651219269, 62736711334180), (701, 72526525525, 1021328554621100),
  (801, 584130533519, 90588657979150), (710, 178740818763, 210453676637680),
  (670, 75839374890, 231783586181480), (720, 495645178898, 63841281360570),
  (796, 487623914638, 34225536475310), (703, 35096991676, 22046082654860),
  (835, 319492825640, 157484580128220), (824, 8813665925, 21600740842370),
  (653, 419599635390, 24723934538180), (826, 466845240923, 42711945573780),
  (690, 41873449575, 585647765911540), (690, 134023204821, 628307584999140),
  (690, 58291546593, 21345915413240), (639, 120304559619, 86742347575360),
  (830, 157233214789, 189835121793960), (753, 151187970880, 57616138801060),
  (629, 283598833891, 42096911658350), (690, 348062808501, 21313903674360),
  (600, 522938546212, 21202707105080), (565, 528099337758, 42367742956920),
  (552, 583265103738, 8434282612290), (546, 356588711151, 148598012106520),
  (642, 615007145598, 17935884549420), (697, 191977327925, 13458534360760),
  (648, 515917450752, 807675484730), (551, 333109164145, 98066817835880),
  (511, 387073988213, 12598732389850), (506, 80261216855, 18105576652360),
  (564, 405871107615, 83110498122420), (681, 345804290093, 22036445832900),
  (541, 239252901431, 42193232443000), (498, 311515053568, 43912836384820),
  (517, 275430004800, 114824761040620), (491, 447199498503, 55800214074590),
  (467, 418144797677, 44475743814070), (458, 60848440253, 20623373254700),
  (542, 328613020157, 24554242435240), (477, 548556902348, 3542472265210),
  (474, 242545073874, 43689313161450), (481, 372498040536, 20613736432740),
  (435, 161732308614, 19195845443560), (488, 26059969650, 41630325013750),
  (493, 413699180247, 51864526483070), (595, 511706007934, 21457111982520),
  (486, 517710069856, 6766805156650), (463, 553192185211, 41852143602870),
  (421, 557377685121, 43079097657000), (446, 620735049659, 7329712585900),
  (421, 465837340438, 54302428721890), (435, 295256554350, 541662597140),
  (416, 436391909218, 11338771495710), (495, 538121485133, 39117346822390),
  (520, 399939347071, 61855664531160), (429, 326903461513, 14414657116320),
  (435, 160816661416, 221474308759620), (398, 238329818919, 29912639426920),
  (399, 6301179341, 20670681329900), (394, 275496219113, 42584743135060),
  (508, 286873328929, 33773251065900), (475, 568530292289, 32032402291970),
  (432, 68132398291, 11642609634290), (404, 184249441289, 978668735533500),
  (371, 583382962844, 200855753915900), (382, 424995364794, 38724131496080)]

/-- `vsop87d_dict.py` 22807-22906. -/
def saturnB0_3 : List (ℕ × ℕ × ℕ) := [
  (416, 381986946256, 42951895218280), (491, 418623117082, 21989137757700),
  (352, 165610545221, 96340270297140), (353, 550209003460, 30534616939270),
  (431, 439380503963, 35330106501700), (375, 267828133567, 31957326339430),
  (359, 354801032661, 42118156490460), (339, 519074405462, 6915252427480),
  (358, 111857595997, 104440407666220), (334, 184260994740, 136154670584420),
  (328, 607106596408, 71074673161820), (328, 148618893585, 242092863603340),
  (359, 562797136991, 7871375183040), (405, 291366762549, 189123767093880),
  (398, 208900381937, 466586644600), (326, 162373774313, 562907429250),
  (405, 187470341223, 11439910691340), (393, 56487847337, 12895626931510),
  (312, 529291124448, 34788443904560), (310, 31232452686, 42734895040140),
  (308, 284912656825, 48736514376280), (291, 325977762780, 49426624244250),
  (303, 493962873690, 37390799283650), (289, 283591185309, 21207525516060),
  (289, 205371431350, 21452293571540), (398, 603822674845, 43222726516850),
  (288, 616001418475, 96962247809490), (296, 30332524090, 105544977692610),
  (280, 129728455136, 24161027108930), (280, 541630221077, 149309366806600),
  (315, 624003908326, 46595506679120), (274, 503981944861, 45884151979040),
  (296, 304457317761, 21160217440860), (274, 272607352851, 14563104387150),
  (293, 132452002382, 15912442469020), (263, 611559198968, 242804218303420),
  (323, 117502395659, 81506334611420), (345, 537083374878, 42808266358430),
  (258, 43205106363, 263422773147140), (275, 91628212149, 84926422848890),
  (340, 129378813067, 32972519178090), (294, 429399534634, 419278569400),
  (339, 103883773894, 3224332891440), (244, 352504227332, 18498791978670),
  (243, 313047989401, 52575881183150), (260, 599216785208, 2060692781950),
  (303, 396772261614, 93494851496820), (285, 569474711283, 22093390730060),
  (239, 209516779457, 29201284726840), (242, 98744748894, 28245161971280),
  (278, 281667003542, 8731177153950), (285, 476303256917, 5417467074780),
  (236, 579560286324, 28096714700450), (246, 183689902078, 21499601646740),
  (221, 48302467341, 15349535039770), (238, 352738705554, 26747376618580),
  (293, 591401607974, 1497785352700), (235, 29884419224, 1401464568050),
  (229, 391975580405, 18227960680100), (217, 396328561940, 89484087952760),
  (218, 146057992688, 253113495725280), (210, 201138855049, 21186280683950),
  (210, 287823761610, 21473538403650), (223, 249651288358, 146463948006280),
  (217, 403234048538, 83503713448730), (209, 297542058241, 27310284047830),
  (210, 256849303008, 59342686339800), (218, 171859101510, 96320784650),
  (232, 186083014117, 22116340196420), (199, 353454927143, 21966188291340),
  (197, 265338829617, 86424208201590), (219, 346267185338, 118292157353290),
  (199, 256046317223, 26450482076920), (199, 203508708900, 75721715453420),
  (237, 505443109284, 25494359321360), (191, 207106909876, 75632338265690),
  (192, 167985944172, 167793857550080), (191, 105067348453, 70214871190910),
  (181, 189151852263, 615033915430), (205, 198151360584, 19928444975750),
  (181, 125381796494, 273732050569000), (186, 281416016738, 56904784100980),
  (215, 452373060846, 306082592234740), (222, 290133577623, 20543478891180),
  (246, 355891849574, 125134038462480), (191, 420221553993, 55651766803760),
  (217, 264509967170, 220762954059540), (225, 14271906959, 13140394986990),
  (189, 127260556263, 19269216761850), (179, 615189171649, 292076130680),
  (178, 201622328964, 70511765732570), (181, 362483757675, 23390602325750),
  (188, 292836809840, 22731374111850), (164, 350682537694, 138288734684660),
  (166, 585452227121, 63744960575920), (160, 13309484488, 43126405732200),
  (158, 592242110049, 9687299909510), (178, 455557913565, 4647042291600),
  (157, 135908014451, 5120572533120), (155, 624092514222, 46473122651380)]

/-- `vsop87d_dict.py` 22907-23006. -/
def saturnB0_4 : List (ℕ × ℕ × ℕ) := [
  (155, 602684189458, 128690811962880), (155, 136669731999, 20693630796260),
  (175, 495121713507, 190546476494040), (153, 606094547271, 56118353448360),
  (208, 450537355579, 2437902238820), (185, 549802440713, 20566428357540),
  (160, 418196878816, 334061242669980), (160, 285370771355, 20915449385380),
  (161, 498020340619, 264845482547300), (152, 85558875667, 57074476203920),
  (156, 203601440129, 21744369702220), (192, 398017256784, 21240532356070),
  (192, 90945359875, 21419286731530), (198, 354289000289, 53362311835770),
  (160, 251522796187, 312731333126180), (145, 93414637377, 199433044515740),
  (141, 566801998888, 12035824960600), (141, 388995778619, 45490936652730),
  (152, 101453902153, 284041327990860), (172, 415145223592, 296894541660),
  (146, 526789260159, 706536289100), (177, 43196690516, 14000196957900),
  (144, 395680110579, 30061086697750), (152, 429475572258, 55555446019110),
  (143, 415264164139, 3101948863700), (138, 420096561019, 73194436026870),
  (139, 79924371385, 16682867252200), (135, 127192121638, 9294084583200),
  (165, 194881873062, 10702492748170), (153, 307590434707, 348031056622260),
  (125, 341796878361, 180237199072180), (128, 583700968658, 232494940881560),
  (129, 275851443754, 48077286162380), (122, 475728514255, 285464037391020),
  (129, 467730374872, 91396333463880), (121, 119957548726, 57222923474750),
  (146, 371232877850, 54695644048200), (120, 459083886034, 33928641933650),
  (127, 619372294369, 5980374504030), (123, 598484393970, 47780391620720),
  (122, 582973501131, 99022940591440), (151, 239413061881, 252402141025200),
  (147, 498199291770, 85001498801430), (127, 47350572907, 659228213900),
  (116, 471488890981, 113023137549340), (129, 542665311725, 253824850425360),
  (111, 451520219898, 169927921650320), (114, 206120434865, 95209637027660),
  (112, 414736642579, 42240540518200), (111, 553230411085, 85712853501510),
  (109, 300005651288, 42044785172170), (112, 220667724213, 39557870223900),
  (147, 152324472511, 55258551477450), (118, 547495367121, 295773314812880),
  (113, 257036693965, 46202291352810), (122, 496246567897, 63893407846750),
  (104, 191139383428, 47217484191470), (116, 282742160564, 45097721326420),
  (115, 226043201622, 178103134971940), (110, 486686492403, 291401423582380),
  (109, 443848727280, 40599126305650), (102, 590112611078, 9991138048090),
  (101, 253392410330, 64086049416050), (112, 553802838779, 38135160823740),
  (99, 592199927896, 41162033734900), (100, 521941099517, 42648631629140),
  (137, 220269111622, 716173111060), (97, 127914551364, 284752682690940),
  (115, 522953781515, 111918567522950), (95, 426135357007, 54073666535850),
  (98, 527107833435, 63994547042380), (107, 438879925113, 41258354519550),
  (93, 535954173624, 33455111692130), (94, 116749092536, 564317856367740),
  (106, 419443004843, 48640193591630), (96, 59816870672, 71467888488130),
  (94, 54205024076, 42362924545940), (109, 282817225044, 46824268865160),
  (83, 612100285205, 38012776796000), (84, 220217125255, 90981873305460),
  (85, 520920130934, 56214674233010), (105, 266415710279, 46053844081980),
  (84, 14646013561, 68154178408960), (80, 303551986945, 40992341631960),
  (97, 509373549436, 9204707395470), (110, 203622569317, 64234496686880),
  (80, 571035549752, 36137781986430), (84, 300961145133, 42681063919710),
  (85, 428770375688, 13554855145410), (93, 532943472274, 43201481684740),
  (86, 151247258028, 76025553592000), (84, 583905303748, 42638574255490),
  (100, 362925349363, 42671006546060), (94, 430151510535, 337721779200400),
  (98, 207334671974, 63984910220420), (80, 411576173565, 77448262992160),
  (75, 289122656610, 80672595883600), (80, 88468467902, 85637777548970),
  (72, 485259171933, 39265794093220), (83, 11133738383, 40221916848780)]

/-- `vsop87d_dict.py` 22506-23007. -/
def saturnB0 : List (ℕ × ℕ × ℕ) := List.flatten [
  saturnB0_0, saturnB0_1, saturnB0_2, saturnB0_3, saturnB0_4]

/-- `vsop87d_dict.py` 23009-23108. -/
def saturnB1_0 : List (ℕ × ℕ × ℕ) := [
  (397554998, 533289992556, 21329909543800), (49478641, 314159265359, 0),
  (18571607, 609919206378, 42659819087600), (14800587, 230586060520, 20618554843720),
  (9643981, 169674660120, 22041264243880), (3757161, 125429514018, 41948464387520),
  (2716647, 591166664787, 63989728631400), (1455309, 85161616532, 43371173787680),
  (1290595, 291770857090, 711354700080), (852630, 43572078997, 31639186965660),
  (284386, 161881754773, 22752618943960), (292185, 531574251270, 85319638175200),
  (275090, 388864137336, 10309277421860), (297726, 91909206723, 63278373931320),
  (172359, 5215146556, 64701083331480), (127731, 120711452525, 52969096509460),
  (166237, 244351613165, 19907200143640), (158220, 520850125766, 11020632121940),
  (109839, 245695551627, 21723124870110), (81759, 275839171353, 21011770170030),
  (81010, 286038377187, 1422709400160), (68658, 165537623146, 20225339517410),
  (59281, 182410768234, 32350541665740), (65161, 125527521313, 21648048917570),
  (61024, 125273412095, 20936694217490), (46386, 81534705304, 44082528487760),
  (36163, 181851057689, 22434479570190), (34041, 283971297997, 11731986822020),
  (32164, 118676132343, 84608283475120), (33114, 130557080010, 41237109687440),
  (27282, 464744847591, 106649547719000), (22805, 412923703368, 41555249061210),
  (27128, 444228739187, 1104570026390), (18100, 556392353608, 86030992875280),
  (20851, 140999273740, 30927832265580), (14947, 134302610607, 9597922721780),
  (15316, 122393617996, 6373589830340), (14601, 100753704970, 53680451209540),
  (12842, 227059911053, 74299006053260), (12832, 488898877901, 52257741809380),
  (13137, 245991904379, 49033408917940), (11883, 187308666696, 42341679713830),
  (13027, 321731634178, 27703499374140), (9946, 311650057543, 62567019231240),
  (12710, 29501589197, 42266603761290), (9644, 174586356703, 33061896365820),
  (8079, 241931187953, 43053034413910), (8245, 468121931659, 21574677599280),
  (8958, 46482448501, 42977958461370), (6547, 301351967549, 94917560896980),
  (7251, 597098186912, 14956319713460), (6056, 149115011100, 23463973644040),
  (5791, 536720639912, 73587651353180), (5994, 2442871989, 65412438031560),
  (6647, 390879134581, 35181659230870), (6824, 152456408861, 43764389113990),
  (5134, 381149834833, 7478159856730), (3959, 563505813057, 21085141488320),
  (3811, 263992803111, 318139373770), (3643, 173267151007, 105938193018920),
  (3554, 498621474362, 393215326310), (4568, 433599514584, 62885158605010),
  (3145, 251404811765, 116247470440780), (3522, 116093567319, 22359403617650),
  (2933, 206057834252, 95628915597060), (2644, 562559379305, 20373786788240),
  (2992, 506312015437, 51546387109300), (2304, 273123930535, 2134064100240),
  (2168, 291805928238, 20300415469950), (2398, 399421633537, 127979457262800),
  (2146, 87500689888, 40843894361130), (2074, 165731069687, 13703302416240),
  (1797, 156879308343, 12443341522100), (2088, 185721384366, 13851749687070),
  (1769, 482294294946, 107360902419080), (1635, 120387813348, 8886568021700),
  (2202, 593027042684, 105226838318840), (1843, 22126910774, 75010360753340),
  (1851, 245470409290, 34077089204480), (1890, 41025631859, 12747179660680),
  (1582, 563360832372, 21426230328450), (1920, 377935901504, 35033211960040),
  (1786, 578644477326, 63596513305090), (1497, 313026893210, 70363318461740),
  (1583, 346882532865, 3813303563780), (1577, 402973226017, 38846515523820),
  (1645, 559115773632, 48322054217860), (1405, 407880624509, 72876296653100),
  (1498, 587094430469, 36286229257260), (1317, 222386203585, 21334727954780),
  (1321, 291534782718, 126556747862640), (1307, 541748323885, 21796496188400),
  (1483, 91111666841, 54391805909620), (1291, 262333801070, 55406998748280),
  (1406, 34582712649, 8582729883120), (1287, 282247279651, 23145834270270),
  (1563, 488438049382, 20863322899200), (1316, 530963570131, 21325091132820),
  (1164, 139531381032, 21037833413120), (1295, 246089213219, 20076892246580)]

/-- `vsop87d_dict.py` 23109-23208. -/
def saturnB1_1 : List (ℕ × ℕ × ℕ) := [
  (1236, 303659580871, 83896928775040), (1449, 400934078371, 19513984817330),
  (1251, 146674521697, 21871572140940), (1568, 189939852487, 21233588759150),
  (1067, 534734443894, 20767002114550), (1111, 70962013461, 44793883187840),
  (1012, 137217220640, 63671589257630), (1163, 600108996618, 19120769491020),
  (887, 284483069917, 19195845443560), (1005, 272373040634, 147886657406440),
  (879, 119585734916, 41703696332040), (829, 494182950387, 49744763618020),
  (878, 624981924813, 26598929347750), (781, 461973017912, 42415051032120),
  (924, 364210508536, 22286032299360), (971, 289404568581, 56363121503840),
  (946, 572987725592, 136866025284500), (834, 612384852532, 20910630974400),
  (911, 106795057723, 65094298657790), (731, 81660632103, 14244965013380),
  (795, 554574074566, 7626607127560), (1012, 597140626297, 64307868005170),
  (703, 241479303782, 1029494073850), (726, 452598413209, 56511568774670),
  (691, 231682364985, 16060889739850), (695, 37889317398, 21277783057620),
  (676, 443606270900, 84215068148810), (769, 447368582271, 5269019803950),
  (658, 32331118921, 62173803904930), (838, 468035046143, 28808069400530),
  (674, 563961963995, 86742347575360), (695, 132062509205, 116958825140860),
  (841, 246995220838, 137577379984580), (633, 346145143241, 1815924726470),
  (722, 4119071457, 26992144674060), (757, 215030650611, 20788246946660),
  (692, 87072324976, 21382036029980), (602, 85288769518, 22582926841020),
  (635, 476109030475, 83185574074960), (701, 120410854661, 47928838891550),
  (624, 230585779534, 64382943957710), (582, 18811617696, 148447270830),
  (513, 256525967840, 40450679034820), (502, 497423814367, 21254833591260),
  (644, 210955154583, 127268102562720), (467, 447217820662, 23539049596580),
  (566, 444740324446, 42904587143080), (448, 57491120802, 2209140052780),
  (520, 115131866397, 33773251065900), (476, 478513362967, 21892816973050),
  (519, 61616177345, 43689313161450), (442, 210204008144, 41630325013750),
  (536, 108779067908, 34470304530790), (477, 242483193385, 21621985674480),
  (469, 522622034028, 94206206196900), (392, 41137926465, 30216477565500),
  (400, 517216478470, 41406801790380), (383, 358419227076, 104515483618760),
  (443, 111051326413, 42511371816770), (517, 344547026103, 1253017297220),
  (369, 160095273908, 5662235130260), (354, 279123486392, 158195934828300),
  (405, 593402105921, 17394221952280), (319, 431850876624, 21944943459230),
  (330, 62529198264, 35893013930950), (305, 82404423420, 148598012106520),
  (391, 259385552893, 179525844372100), (291, 312019266878, 21749188113200),
  (294, 218552193901, 44475743814070), (281, 77791302266, 75721715453420),
  (355, 544570491928, 168505212250160), (305, 265927043884, 35574874557180),
  (269, 600323720265, 93494851496820), (287, 260486363576, 11338771495710),
  (348, 98872551635, 7084944530420), (331, 562133883922, 956122755560),
  (255, 414086605030, 28414854074220), (311, 627145060602, 20714875628370),
  (267, 472606312146, 69651963761660), (319, 468828119248, 115536115740700),
  (227, 310352674343, 136154670584420), (228, 119253095837, 158907289528380),
  (244, 536327976010, 24554242435240), (218, 216069250901, 17787437278590),
  (254, 451652534648, 114824761040620), (211, 282699627326, 10627416795630),
  (230, 463171743406, 10702492748170), (201, 452152562223, 50835032409220),
  (230, 593560798508, 61855664531160), (253, 208074949572, 25265597135320),
  (234, 243423283339, 169216566950240), (196, 101284131123, 11439910691340),
  (196, 273629728926, 21404985496340), (191, 151642829677, 606977675455340),
  (252, 510097595426, 125845393162560), (240, 293712394928, 91693228005540),
  (224, 442406538277, 25143213107580), (223, 234400676548, 167793857550080),
  (228, 500073557208, 157484580128220), (183, 509056895026, 22046082654860)]

/-- `vsop87d_dict.py` 23209-23268. -/
def saturnB1_2 : List (ℕ × ℕ × ℕ) := [
  (178, 605669760153, 20613736432740), (185, 373859309582, 11413847448250),
  (200, 189409546254, 242092863603340), (158, 278517362162, 200855753915900),
  (191, 228724146195, 243515573003500), (188, 429343910228, 147175302706360),
  (155, 535194123420, 57616138801060), (174, 280423114755, 178103134971940),
  (166, 532531835813, 200144399215820), (165, 262993712087, 52549817940060),
  (141, 473916921092, 50137978944330), (161, 583368523750, 18105576652360),
  (137, 145135867137, 13154696222180), (157, 322870773657, 149309366806600),
  (136, 420279658293, 71074673161820), (144, 461003572124, 12125202148330),
  (131, 585409245557, 17516605980020), (144, 96056164245, 21478356814630),
  (146, 395687956474, 42193232443000), (138, 103080573610, 466586644600),
  (167, 197508934614, 6225142559510), (123, 228640485589, 189835121793960),
  (168, 463122081226, 189123767093880), (129, 5327999225, 21181462272970),
  (134, 349720535944, 48884961647110), (117, 343819501459, 43615941843160),
  (125, 587007326241, 96340270297140), (120, 70795300239, 8175213321620),
  (125, 450999471095, 231783586181480), (116, 611600926571, 55800214074590),
  (117, 478666549046, 60176425067620), (108, 45464469172, 180237199072180),
  (111, 144669239244, 253113495725280), (109, 614289264597, 15104766984290),
  (113, 405600865495, 128690811962880), (129, 513936946160, 84926422848890),
  (127, 388189432056, 9889998852460), (133, 238290634070, 211165031337760),
  (122, 440757611742, 77841478318470), (95, 7909774752, 21341097002260),
  (95, 166925524906, 21318722085340), (103, 188058957173, 9916062095550),
  (119, 362785705509, 24872381809010), (90, 463029999228, 22827694896500),
  (92, 548700119144, 76736908292080), (89, 461331934339, 43126405732200),
  (99, 360670326134, 77693031047640), (85, 493878023673, 244768055480),
  (89, 624541644164, 66123792731640), (85, 45896349060, 138288734684660),
  (88, 381144552178, 178814489672020), (103, 320558404998, 31219908396260),
  (80, 228889729136, 21308664711690), (80, 574264101239, 21351154375910),
  (82, 323546757052, 19832124191100), (78, 603841191050, 83503713448730),
  (80, 22601918692, 42756139872250), (72, 205164614795, 263422773147140),
  (91, 597938003596, 55651766803760), (87, 271469794199, 61780588578620)]

/-- `vsop87d_dict.py` 23008-23269. -/
def saturnB1 : List (ℕ × ℕ × ℕ) := List.flatten [
  saturnB1_0, saturnB1_1, saturnB1_2]

/-- `vsop87d_dict.py` 23271-23370. -/
def saturnB2_0 : List (ℕ × ℕ × ℕ) := [
  (20629977, 50482422817, 21329909543800), (3719555, 399833475829, 20618554843720),
  (1627158, 618189939500, 22041264243880), (1346067, 0, 0),
  (705842, 303914308836, 41948464387520), (365042, 509928680706, 42659819087600),
  (329632, 527899210039, 43371173787680), (219335, 382841533795, 63989728631400),
  (139393, 104272623499, 711354700080), (103980, 615730992966, 22752618943960),
  (92961, 197994412845, 31639186965660), (71242, 414754353431, 19907200143640),
  (51927, 288364833898, 63278373931320), (48961, 443390206741, 64701083331480),
  (41373, 315927770079, 85319638175200), (28602, 452978327558, 21011770170030),
  (23969, 111595912146, 1422709400160), (20511, 435095844197, 21723124870110),
  (19532, 530779711223, 44082528487760), (18263, 85391476786, 11020632121940),
  (15742, 425767226302, 10309277421860), (16840, 568112084135, 21648048917570),
  (13613, 299904334066, 41237109687440), (11567, 252679928410, 52969096509460),
  (7963, 331512423920, 20225339517410), (6599, 28766025146, 32350541665740),
  (6312, 116121321336, 11731986822020), (5891, 358260177246, 30927832265580),
  (6648, 555714129949, 20936694217490), (5590, 247783944511, 106649547719000),
  (6192, 361231886519, 86030992875280), (4231, 302212363572, 84608283475120),
  (3612, 479935735435, 62567019231240), (3398, 376732731354, 42341679713830),
  (3387, 604222745633, 23463973644040), (2578, 563610668746, 73587651353180),
  (2831, 481642822334, 42977958461370), (2817, 447516563908, 65412438031560),
  (2573, 22467245054, 52257741809380), (2610, 329126967191, 9597922721780),
  (2419, 2986335489, 41555249061210), (2112, 455964179603, 42266603761290),
  (2304, 625081073546, 33061896365820), (1758, 553430456858, 53680451209540),
  (1814, 505675881426, 27703499374140), (1550, 560375604692, 22359403617650),
  (1457, 447767649852, 43053034413910), (1607, 553599550100, 22434479570190),
  (1172, 471017775994, 20300415469950), (1231, 25115931880, 393215326310),
  (1105, 101595427676, 2134064100240), (868, 484623483952, 94917560896980),
  (939, 135429452093, 74299006053260), (693, 603599130692, 12443341522100),
  (712, 445550701473, 19195845443560), (690, 544243765037, 43764389113990),
  (810, 46198177342, 51546387109300), (694, 523748122403, 44793883187840),
  (604, 295749705544, 8886568021700), (669, 8457977809, 21574677599280),
  (579, 65329445948, 318139373770), (712, 605964117622, 1104570026390),
  (698, 291371419321, 107360902419080), (526, 224947851818, 105938193018920),
  (511, 286838724347, 40843894361130), (589, 579268515755, 6373589830340),
  (519, 176641574095, 127979457262800), (503, 573762297081, 72876296653100),
  (482, 468234512154, 83896928775040), (494, 404363805503, 49033408917940),
  (458, 117998315936, 21085141488320), (380, 528045750432, 105226838318840),
  (404, 458953258519, 30216477565500), (377, 520131800999, 7478159856730),
  (328, 11893501088, 95628915597060), (290, 399300398632, 116247470440780),
  (262, 204320741578, 147175302706360), (259, 376206113036, 63596513305090),
  (254, 16694559092, 19513984817330), (309, 544921175960, 54391805909620),
  (237, 127761853769, 23145834270270), (288, 132449995239, 20373786788240),
  (229, 419748765966, 126556747862640), (238, 402925601887, 64307868005170),
  (238, 49997895983, 1029494073850), (257, 369107889837, 86742347575360),
  (191, 17807919948, 62885158605010), (246, 562469599682, 35181659230870),
  (183, 338184740572, 63671589257630), (172, 383173494030, 158195934828300),
  (220, 103443668151, 48322054217860), (217, 465210162713, 75010360753340),
  (143, 231969979791, 1815924726470), (137, 550046852846, 116958825140860),
  (120, 370151294359, 41630325013750), (136, 338453909352, 115536115740700),
  (149, 85459831932, 137577379984580), (150, 571949902293, 61855664531160),
  (125, 482446274394, 43689313161450), (120, 326968058035, 147886657406440)]

/-- `vsop87d_dict.py` 23371-23381. -/
def saturnB2_1 : List (ℕ × ℕ × ℕ) := [
  (131, 11496484259, 189835121793960), (99, 457241894541, 64382943957710),
  (95, 492115458463, 65094298657790), (90, 209300085806, 62173803904930),
  (111, 11975665259, 83185574074960), (89, 254351587616, 8582729883120),
  (80, 509103451442, 34077089204480), (78, 317395501851, 49744763618020),
  (85, 18997660997, 125845393162560), (81, 116732337173, 21796496188400),
  (72, 547328223678, 33773251065900)]

/-- `vsop87d_dict.py` 23270-23382. -/
def saturnB2 : List (ℕ × ℕ × ℕ) := List.flatten [
  saturnB2_0, saturnB2_1]

/-- `vsop87d_dict.py` 23384-23441. -/
def saturnB3_0 : List (ℕ × ℕ × ℕ) := [
  (666252, 199006340181, 21329909543800), (632350, 569778316807, 20618554843720),
  (398051, 0, 0), (187838, 433779804809, 22041264243880),
  (91884, 484104208217, 41948464387520), (42369, 238073239056, 42659819087600),
  (51548, 342149490328, 43371173787680), (25661, 440167213109, 22752618943960),
  (20551, 585313509872, 19907200143640), (18081, 199321433229, 63989728631400),
  (10874, 537344546547, 711354700080), (9590, 254901825866, 64701083331480),
  (7085, 345518372721, 31639186965660), (6002, 480055225135, 63278373931320),
  (5778, 1680378777, 21011770170030), (4881, 563719730884, 1422709400160),
  (4501, 122424419010, 85319638175200), (5542, 351756747774, 44082528487760),
  (3548, 471299370890, 41237109687440), (2851, 62679207578, 10309277421860),
  (2173, 371982274459, 21648048917570), (1991, 610867071657, 21723124870110),
  (1435, 169177141453, 86030992875280), (1217, 430778838827, 23463973644040),
  (1157, 575027789902, 30927832265580), (795, 569026441157, 11731986822020),
  (733, 59842720676, 106649547719000), (713, 21700311697, 62567019231240),
  (773, 548361981990, 20225339517410), (897, 265577866867, 65412438031560),
  (509, 286079833766, 42977958461370), (462, 417742567173, 52969096509460),
  (390, 611288036049, 19195845443560), (505, 451905764563, 32350541665740),
  (379, 374436004151, 22359403617650), (332, 549370890570, 2134064100240),
  (377, 525624813434, 9597922721780), (384, 448187414769, 33061896365820),
  (367, 503190929680, 84608283475120), (281, 114133888637, 73587651353180),
  (245, 581618253250, 42341679713830), (241, 170335120180, 52257741809380),
  (258, 369110118716, 44793883187840), (231, 415697626494, 11020632121940),
  (305, 597746884029, 30216477565500), (284, 66224572127, 20300415469950),
  (204, 154683820621, 20936694217490), (194, 421193801453, 12443341522100),
  (145, 479689259614, 8886568021700), (151, 382010884134, 53680451209540),
  (100, 3596545368, 94917560896980), (97, 91303450276, 107360902419080),
  (110, 221197473966, 51546387109300), (84, 253842533109, 42266603761290),
  (85, 511102520704, 393215326310), (77, 604074586787, 83896928775040),
  (85, 118898817378, 72876296653100), (84, 410158366806, 22434479570190)]

/-- `vsop87d_dict.py` 23383-23442. -/
def saturnB3 : List (ℕ × ℕ × ℕ) := saturnB3_0

/-- `vsop87d_dict.py` 23444-23469. -/
def saturnB4_0 : List (ℕ × ℕ × ℕ) := [
  (80384, 111918414679, 20618554843720), (31660, 312218745098, 21329909543800),
  (17143, 248073200414, 22041264243880), (11844, 314159265359, 0),
  (9005, 38441424927, 41948464387520), (6164, 156186379537, 43371173787680),
  (4660, 128235639570, 19907200143640), (4775, 263498295487, 22752618943960),
  (1487, 143096671616, 42659819087600), (1424, 66988083613, 64701083331480),
  (1075, 618092274059, 63989728631400), (1145, 172041928134, 44082528487760),
  (682, 384841098180, 1422709400160), (655, 349486258327, 711354700080),
  (456, 47338193402, 63278373931320), (509, 31432285584, 41237109687440),
  (343, 586413875355, 85319638175200), (270, 250125594913, 23463973644040),
  (197, 539156324804, 31639186965660), (236, 211084590211, 21011770170030),
  (172, 609682874401, 86030992875280), (159, 595049154821, 21648048917570),
  (100, 198534903594, 62567019231240), (112, 85526419268, 65412438031560),
  (115, 503884718594, 11731986822020), (115, 44589613974, 11020632121940)]

/-- `vsop87d_dict.py` 23443-23470. -/
def saturnB4 : List (ℕ × ℕ × ℕ) := saturnB4_0

/-- `vsop87d_dict.py` 23472-23482. -/
def saturnB5_0 : List (ℕ × ℕ × ℕ) := [
  (7895, 281927558645, 20618554843720), (1014, 51187210270, 22041264243880),
  (772, 299484124049, 19907200143640), (967, 314159265359, 0),
  (583, 596456944075, 43371173787680), (588, 78008666397, 22752618943960),
  (445, 238630799074, 41948464387520), (98, 510622131539, 64701083331480),
  (91, 581659714144, 711354700080), (88, 617828532308, 44082528487760),
  (89, 58396864530, 21329909543800)]

/-- `vsop87d_dict.py` 23471-23483. -/
def saturnB5 : List (ℕ × ℕ × ℕ) := saturnB5_0

/-- `vsop87d_dict.py` 22505-23484 `_planets[("Saturn", "B")]`. -/
def saturnB : List (List (ℕ × ℕ × ℕ)) :=
  [saturnB0, saturnB1, saturnB2, saturnB3, saturnB4, saturnB5]

/-- `vsop87d_dict.py` 23487-23586. -/
def saturnR0_0 : List (ℕ × ℕ × ℕ) := [
  (955758135801, 0, 0), (52921382465, 239226219733, 21329909543800),
  (1873679934, 523549605091, 20618554843720), (1464663959, 164763045468, 42659819087600),
  (821891059, 593520025371, 31639186965660), (547506899, 501532628454, 10309277421860),
  (371684449, 227114833428, 22041264243880), (361778433, 313904303264, 711354700080),
  (140617548, 570406652991, 63278373931320), (108974737, 329313595577, 11020632121940),
  (69007015, 594099622447, 41948464387520), (61053350, 94037761156, 63989728631400),
  (48913044, 155733388472, 20225339517410), (34143794, 19518550682, 27703499374140),
  (32401718, 547084606947, 94917560896980), (20936573, 46349163993, 73587651353180),
  (20839118, 152102590640, 43371173787680), (20746678, 533255667599, 19907200143640),
  (15298457, 305943652881, 52969096509460), (14296479, 260433537909, 32350541665740),
  (11993314, 598051421881, 84608283475120), (11380261, 173105746566, 52257741809380),
  (12884128, 164892310393, 13851749687070), (7752769, 585191318903, 9597922721780),
  (9796061, 520475863996, 126556747862640), (6465967, 17733160145, 105226838318840),
  (6770621, 300433479284, 1422709400160), (5850443, 145519636076, 41555249061210),
  (5307481, 59737534050, 6373589830340), (4695746, 214919036956, 22752618943960),
  (4043988, 164010323863, 20936694217490), (3688132, 78016133170, 41237109687440),
  (3376457, 369528478828, 22434479570190), (2885348, 138764077631, 83896928775040),
  (2976033, 568467931117, 21011770170030), (3419551, 494549148887, 158195934828300),
  (3460943, 185088802878, 17516605980020), (3400616, 55386747515, 35033211960040),
  (2507630, 353851863255, 74299006053260), (2448325, 618412386316, 136866025284500),
  (2406138, 296559220267, 11731986822020), (2881181, 17960757891, 85319638175200),
  (2173959, 1508587396, 34077089204480), (2024483, 505411271271, 1104570026390),
  (1740254, 234657043464, 30927832265580), (1861397, 593361638244, 62567019231240),
  (1888436, 2968443389, 393215326310), (1610859, 117302463549, 7478159856730),
  (1462631, 192588134017, 21648048917570), (1474547, 567670461130, 20373786788240),
  (1395109, 593669404929, 12747179660680), (1781165, 76314388077, 21723124870110),
  (1817186, 577713225779, 49033408917940), (1472392, 140064915651, 13703302416240),
  (1304089, 77235613966, 64701083331480), (1149773, 574021249703, 116247470440780),
  (1126667, 446707803791, 26598929347750), (1277489, 298412586423, 105938193018920),
  (1207053, 75285933160, 35181659230870), (1071399, 113567265104, 115536115740700),
  (1020922, 591233512844, 168505212250160), (1315042, 511202572637, 21181462272970),
  (1295553, 469184139933, 189835121793960), (1099037, 181765118601, 14956319713460),
  (998462, 263131596867, 20076892246580), (985869, 225992849742, 95628915597060),
  (932434, 366980793184, 55406998748280), (664481, 60297724821, 72876296653100),
  (659850, 466635439533, 19513984817330), (617740, 562092000007, 94206206196900),
  (626382, 594208232590, 147886657406440), (482230, 184070179496, 47928838891550),
  (487689, 279373616806, 318139373770), (470086, 83847755040, 147175302706360),
  (451817, 564468459871, 200144399215820), (553128, 341088600844, 26992144674060),
  (534397, 126443331367, 27555052103310), (472572, 188198584660, 51546387109300),
  (405434, 164001413521, 53680451209540), (517196, 444310450526, 221474308759620),
  (452848, 300349117198, 30216477565500), (494340, 228626675074, 27851946644970),
  (489825, 580631420383, 19120769491020), (427459, 5741344372, 28414854074220),
  (339763, 140198657693, 44082528487760), (340627, 89091104306, 62885158605010),
  (385974, 199700402508, 127268102562720), (288298, 112160250272, 42266603761290),
  (294444, 42577061903, 31219908396260), (262490, 31753439818, 104515483618760),
  (295331, 67144493789, 8886568021700), (342968, 585600322299, 179525844372100),
  (341117, 237585247250, 52549817940060), (234018, 422756813216, 11413847448250),
  (223729, 228129446763, 33061896365820), (275814, 47832439352, 3813303563780),
  (224592, 54754005675, 178814489672020), (303300, 87946670205, 606977675455340),
  (292103, 621420611920, 21085141488320), (226121, 37495223398, 14244965013380)]

/-- `vsop87d_dict.py` 23587-23686. -/
def saturnR0_1 : List (ℕ × ℕ × ℕ) := [
  (277257, 531917702012, 69258748435350), (242911, 537187983246, 125845393162560),
  (205571, 95755250527, 28808069400530), (207567, 538126259725, 231783586181480),
  (186835, 603591766061, 40450679034820), (218536, 525607043545, 21233588759150),
  (222155, 594588016768, 3935687591520), (179673, 441045924362, 40843894361130),
  (241440, 112525868110, 38846515523820), (197093, 390141942850, 5269019803950),
  (236639, 90802744873, 137577379984580), (171915, 556318632797, 21334727954780),
  (169865, 285667554010, 9916062095550), (214398, 420253525974, 253113495725280),
  (172010, 236537801012, 21325091132820), (165707, 263679789706, 21574677599280),
  (230892, 549463421262, 19195845443560), (177585, 38155817719, 43053034413910),
  (191514, 295906900704, 43764389113990), (163250, 345832517280, 61780588578620),
  (162305, 573050678664, 20300415469950), (175108, 571404465044, 106649547719000),
  (183041, 566851947172, 211165031337760), (150077, 440663921925, 41703696332040),
  (187935, 607916265661, 56363121503840), (145127, 508176368814, 42341679713830),
  (137491, 543912787991, 22286032299360), (172824, 184920994090, 158907289528380),
  (165478, 289132196119, 21426230328450), (145727, 156565192483, 83185574074960),
  (176864, 230323752987, 999998645077300), (128877, 255338644107, 41406801790380),
  (120093, 4329750542, 136154670584420), (143441, 99817357720, 7626607127560),
  (108747, 209282278191, 20767002114550), (132106, 285902597898, 31245971639350),
  (112238, 26221759151, 210453676637680), (125186, 478354048063, 20522234059070),
  (104427, 363671899047, 6522037101170), (107447, 367064138701, 21277783057620),
  (108642, 285492389024, 2134064100240), (97743, 512231845599, 263422773147140),
  (109097, 163231061493, 20863322899200), (96852, 419928280035, 30534616939270),
  (96507, 256002066845, 169216566950240), (85829, 454545085982, 21037833413120),
  (99249, 513816222131, 157484580128220), (112532, 503109281265, 70363318461740),
  (84023, 118337717265, 42977958461370), (89021, 538791571457, 10702492748170),
  (110191, 243656081234, 35574874557180), (90659, 420908809746, 21382036029980),
  (95885, 544594259071, 242804218303420), (94109, 239786381418, 48322054217860),
  (85609, 3354346966, 86030992875280), (88796, 405766306750, 12895626931510),
  (81951, 166499731549, 6225142559510), (91240, 396942332591, 284752682690940),
  (83961, 460845858022, 17787437278590), (88376, 386800515885, 14000196957900),
  (93308, 73846639887, 83110498122420), (91872, 294977605320, 3542472265210),
  (87077, 133390590052, 190546476494040), (96584, 484438390997, 13140394986990),
  (71010, 99334817658, 40525754987360), (95266, 251506908152, 244768055480),
  (72514, 463213873657, 24554242435240), (82580, 152823217919, 14563104387150),
  (76693, 315240783008, 76736908292080), (70317, 404253707270, 17394221952280),
  (86015, 230103727270, 8582729883120), (66529, 475053522835, 7084944530420),
  (65835, 246869725001, 28096714700450), (64824, 9343869325, 956122755560),
  (71557, 1212415296, 56511568774670), (66533, 108034871114, 33928641933650),
  (63488, 201740971153, 23463973644040), (60786, 512026947473, 75632338265690),
  (58123, 605732868566, 167793857550080), (64236, 128586474622, 114824761040620),
  (73124, 437810889148, 42511371816770), (55012, 385865703217, 34225536475310),
  (57101, 626689214029, 242092863603340), (64090, 409854757476, 32743756992050),
  (55306, 160456896521, 54302428721890), (57987, 547269124340, 34788443904560),
  (73581, 372292337326, 9204707395470), (73760, 357045342615, 148447270830),
  (64940, 244739629174, 26747376618580), (54414, 371479080197, 34470304530790),
  (49783, 393453970179, 19269216761850), (49537, 322831070579, 33365734504400),
  (47539, 392925402178, 19928444975750), (49368, 490341763553, 21749188113200),
  (62711, 440120079629, 21478356814630), (46359, 209430260266, 21254833591260),
  (46289, 264038453480, 1029494073850), (54335, 107179534996, 36286229257260),
  (58742, 262270940799, 22582926841020), (48457, 315166418511, 21621985674480)]

/-- `vsop87d_dict.py` 23687-23786. -/
def saturnR0_2 : List (ℕ × ℕ × ℕ) := [
  (46316, 486226642770, 295061960112800), (45970, 497297391881, 19832124191100),
  (46678, 244960215701, 20714875628370), (44905, 177616995803, 22359403617650),
  (44521, 555987055442, 26450482076920), (55914, 429520232351, 32972519178090),
  (49643, 520789299388, 274443405269080), (58829, 423073947869, 70066423920080),
  (52629, 379230629070, 34321857259960), (41532, 74488808688, 12598732389850),
  (47767, 239260015876, 20788246946660), (56157, 207214273531, 12443341522100),
  (43345, 183707598036, 10627416795630), (39793, 400870764324, 1253017297220),
  (53882, 497905460628, 13458534360760), (50135, 575914508514, 32032402291970),
  (44960, 535721924134, 21892816973050), (41089, 492252591399, 189123767093880),
  (46509, 206623129884, 200855753915900), (42949, 39856812529, 35744566660120),
  (37992, 206495914285, 24723934538180), (48733, 532762223699, 312731333126180),
  (34583, 562555932761, 9991138048090), (41092, 247264897370, 23767811782620),
  (40763, 408408559215, 62173803904930), (34213, 73077393007, 75010360753340),
  (33967, 531264617621, 20623373254700), (36509, 168826775750, 2209140052780),
  (39361, 345730719990, 24161027108930), (34796, 224780137629, 48736514376280),
  (33049, 486593901955, 20910630974400), (32584, 222713131846, 31957326339430),
  (39035, 373870591196, 316391869656600), (32722, 106640549236, 25265597135320),
  (38671, 439617126814, 1815924726470), (34514, 182607500690, 38012776796000),
  (41539, 8136234251, 21033015002140), (33527, 580475568528, 25143213107580),
  (31221, 196489151107, 24431858407500), (30521, 226854188579, 116958825140860),
  (34828, 596324553131, 21796496188400), (38481, 443707551964, 16060889739850),
  (35998, 383262381556, 5662235130260), (31041, 489914223233, 14414657116320),
  (32342, 358191018804, 23145834270270), (28838, 580081031514, 199433044515740),
  (32175, 213166877923, 20613736432740), (32643, 193131580544, 9889998852460),
  (34917, 565276617691, 49744763618020), (28928, 221653288920, 1497785352700),
  (31569, 381846560564, 7329712585900), (32199, 99811846290, 146463948006280),
  (29153, 598414099408, 273732050569000), (36706, 475493516597, 34884764689210),
  (28665, 168732054583, 7871375183040), (27501, 612086395418, 21404985496340),
  (28795, 4448605904, 562907429250), (27205, 24587543816, 31321047591890),
  (32441, 377921585847, 3394024994380), (27088, 520310098020, 14807872442630),
  (34956, 343886187587, 27310284047830), (33076, 244662095168, 96962247809490),
  (27745, 144598606685, 25887574647670), (27178, 425918596220, 17935884549420),
  (27872, 78772093522, 54695644048200), (29106, 483947711462, 90588657979150),
  (27417, 244930366818, 25494359321360), (34296, 600920969644, 16682867252200),
  (28859, 602917249910, 18892007304980), (26001, 65046992484, 65412438031560),
  (33560, 123732329127, 222185663459700), (24356, 52248751330, 89484087952760),
  (27767, 517820678484, 541662597140), (25568, 335897159622, 96320784650),
  (22879, 351293480690, 45884151979040), (24496, 976884124, 6915252427480),
  (28794, 75545700854, 48884961647110), (31228, 205299907796, 28245161971280),
  (25438, 529037729250, 63671589257630), (25332, 497007969450, 306082592234740),
  (23596, 254766434769, 19662432088160), (29602, 392688207792, 20670681329900),
  (28255, 272125009693, 3224332891440), (22115, 475775237642, 21318722085340),
  (22130, 325436709191, 68154178408960), (21675, 461403328597, 326701147078460),
  (22115, 316759500067, 21341097002260), (26912, 286269769133, 2437902238820),
  (20737, 166895754198, 27406604832480), (28309, 473122154345, 55258551477450),
  (25252, 511986371899, 16805251279940), (26364, 159272536419, 49181856188770),
  (21995, 88079009280, 63596513305090), (27076, 553694832022, 55555446019110),
  (19683, 214388519695, 5417467074780), (27266, 357891326986, 56118353448360),
  (25162, 178070903718, 18227960680100), (21386, 386030772476, 11642609634290),
  (25572, 162093861709, 232494940881560), (20025, 290618582553, 12035824960600)]

/-- `vsop87d_dict.py` 23787-23886. -/
def saturnR0_3 : List (ℕ × ℕ × ℕ) := [
  (19882, 559203696008, 419278569400), (19454, 10623632006, 21871572140940),
  (25617, 209931460158, 24872381809010), (19804, 252180124343, 148598012106520),
  (18516, 254810951896, 21351154375910), (19831, 7955320843, 84215068148810),
  (18516, 537755110510, 21308664711690), (23655, 159974907716, 73879727483860),
  (20375, 294653107321, 5980374504030), (24247, 315387696867, 24038643081190),
  (18294, 318715992969, 29505122865420), (17464, 290471803626, 47780391620720),
  (20698, 107232100334, 49426624244250), (20400, 183665590916, 53362311835770),
  (21285, 63341794388, 18972322220190), (16116, 60069688498, 74692221379570),
  (16297, 398317294128, 292076130680), (16922, 474266972033, 220762954059540),
  (20479, 605098286202, 17368158709190), (15447, 149120311247, 54391805909620),
  (19944, 494086632750, 12125202148330), (17127, 71458025372, 178103134971940),
  (17240, 67749766724, 15104766984290), (15574, 570296527381, 305371237534660),
  (15036, 552770334605, 231072231481400), (15928, 445642717299, 64382943957710),
  (16165, 63286131026, 35893013930950), (14589, 526158292613, 47217484191470),
  (16545, 352813228069, 348031056622260), (18912, 55218675639, 466586644600),
  (17595, 226495491189, 67214061522840), (18104, 271285673689, 18180652604900),
  (15918, 523446779429, 13554855145410), (13931, 319357128657, 21355972786890),
  (14058, 82375896652, 22137585028530), (13931, 473208739639, 21303846300710),
  (14690, 265882838685, 29201284726840), (14454, 21819892811, 23539049596580),
  (16168, 91025406068, 28000393915800), (13327, 354947442109, 20566428357540),
  (16104, 82547975762, 17665053250850), (16441, 539398801335, 42415051032120),
  (12747, 75780958758, 72164941953020), (12754, 355466871752, 15349535039770),
  (14448, 12049617049, 31368355667090), (16499, 326383140489, 628307584999140),
  (16564, 162649604519, 585647765911540), (14950, 123923264394, 264134127847220),
  (15724, 118874754834, 48640193591630), (11893, 91693668558, 41630325013750),
  (11684, 111385455828, 8175213321620), (12985, 474373293725, 337721779200400),
  (11864, 64411806416, 2831117565130), (13216, 495904024430, 127979457262800),
  (16121, 98185208328, 253824850425360), (14900, 176649832526, 56904784100980),
  (11337, 436555105334, 358340334044120), (11253, 598638731448, 19365537546500),
  (14753, 292291248767, 16708930495290), (13774, 250808183571, 180237199072180),
  (11068, 471764868, 62960234557550), (12781, 362178749219, 6766805156650),
  (12238, 27163151602, 104440407666220), (11021, 15223056578, 50137978944330),
  (14206, 263254885854, 61855664531160), (14365, 37819794671, 60176425067620),
  (15034, 267095006272, 4647042291600), (12248, 219751851112, 65094298657790),
  (10783, 286375137884, 11338771495710), (11418, 120874560246, 17224529849340),
  (14613, 605645353059, 46824268865160), (10580, 205903854864, 42904587143080),
  (13721, 220936291526, 22827694896500), (12180, 182585577726, 24187090352020),
  (10787, 506924118186, 16289651925890), (12056, 320018724042, 7207328558160),
  (12233, 450741930970, 42563498302950), (12101, 414977794161, 110813997496560),
  (9843, 149451039604, 22663241756230), (10287, 210680007784, 103335837639830),
  (9975, 281640446254, 51864526483070), (9597, 480028087522, 42664637498580),
  (10746, 466838299108, 12991947716160), (12961, 511568581806, 21944943459230),
  (12302, 533568547700, 77693031047640), (9484, 485702954575, 82005928096030),
  (11441, 385769732764, 40599126305650), (9625, 160280478656, 42655000676620),
  (9164, 70204567980, 40302231763990), (10112, 276486875630, 21059078245230),
  (10816, 136864298163, 17076082578510), (10187, 236063948382, 68547393735270),
  (12397, 606349943525, 87583029900100), (12146, 204060386262, 50835032409220),
  (9574, 319555214859, 28659622129700), (10193, 401123146905, 38135160823740),
  (8900, 363260235880, 31931263096340), (10052, 516107251040, 21600740842370),
  (8528, 388076551354, 63033605875840), (8875, 546623776078, 337010424500320)]

/-- `vsop87d_dict.py` 23887-23986. -/
def saturnR0_4 : List (ℕ × ℕ × ℕ) := [
  (8401, 565557131026, 21345915413240), (10033, 597497644283, 615033915430),
  (8401, 227009862215, 21313903674360), (11661, 95163302252, 69407195706180),
  (8696, 233868966556, 22036445832900), (8141, 554059747150, 22046082654860),
  (9615, 275755414306, 55651766803760), (9120, 44322374149, 209742321937600),
  (8109, 553989498262, 18105576652360), (10763, 5616402982, 69110301164520),
  (9579, 284979792871, 18409414790940), (9958, 238581008546, 94524345570670),
  (8526, 17821781104, 28956516671360), (7700, 481375410, 716173111060),
  (8613, 82900327241, 295773314812880), (9517, 227516458273, 807675484730),
  (9049, 337335025790, 73194436026870), (7888, 578452089815, 23082520325630),
  (7684, 310462250617, 706536289100), (7391, 529648701813, 262711418447060),
  (9875, 469411059509, 1021328554621100), (7328, 9051133382, 10064509366380),
  (7999, 160928374337, 69651963761660), (7600, 490078510977, 5120572533120),
  (9928, 525713005643, 69970103135430), (7333, 561982406824, 3149256938900),
  (7376, 452737009022, 61632141307790), (9422, 244475274779, 211876386037840),
  (7300, 401885475010, 21202707105080), (7502, 471301501745, 43615941843160),
  (9071, 275662160229, 13044074202340), (8913, 219608557019, 42756139872250),
  (8801, 426655882704, 14122580985640), (6853, 569082635009, 48077286162380),
  (7765, 327218537808, 379670243587920), (9159, 304713671650, 978668735533500),
  (9034, 204165937353, 20470107572890), (6902, 461962635489, 252402141025200),
  (6728, 58794595002, 73980866679490), (6741, 52362906624, 13533610313300),
  (8201, 503994203224, 41162033734900), (7240, 390653111215, 21457111982520),
  (6887, 411954799957, 66253120356300), (6566, 267659365854, 19417664032680),
  (6539, 625585361704, 3101948863700), (7484, 556871021201, 27140591944890),
  (8078, 309955817560, 35330106501700), (7072, 110066698352, 28266406803390),
  (6089, 79684364835, 59342686339800), (6140, 379672343724, 18016199464630),
  (6703, 382854248620, 41258354519550), (6024, 546288776207, 72483081326790),
  (8102, 451051495778, 26843697403230), (6033, 124326252021, 44793883187840),
  (7425, 229394888999, 53261172640140), (6007, 287215425398, 42607692601420),
  (7568, 79147591036, 285464037391020), (5816, 170824982811, 5040257617910),
  (7534, 538598292680, 95310776223290), (5863, 204201456623, 45490936652730),
  (7291, 88044346877, 45761767951300), (6235, 451960341418, 369360966166060),
  (6359, 627053660532, 31394418910180), (5722, 47241118592, 61069233878540),
  (5704, 45599464136, 64307868005170), (6176, 398739420856, 83503713448730),
  (5730, 50814242490, 103804128918680), (6812, 420463385690, 93812990870590),
  (5620, 408049141112, 389979521009780), (6770, 422172125738, 91693228005540),
  (6069, 346762401122, 27825883401880), (5875, 551773010551, 107360902419080),
  (5558, 329478679376, 2060692781950), (6274, 488767368263, 52126486180),
  (5794, 409991767938, 39117346822390), (5442, 279802608247, 39739324334740),
  (5754, 442718264879, 16560483224460), (5879, 617871525366, 29126208774300),
  (6716, 218663847730, 62736711334180), (5761, 62536160332, 11439910691340),
  (5359, 229390692216, 33120966448920), (6210, 492273259045, 45097721326420),
  (6686, 213438181268, 28563301345050), (5173, 410128119721, 659228213900),
  (5707, 348716972669, 23056457082540), (6363, 564626069194, 51838463239980),
  (5241, 378081098206, 41852143602870), (5191, 439595146262, 8434282612290),
  (6710, 296748528229, 62491943278700), (4931, 271959451867, 55800214074590),
  (5225, 465463431385, 31071461125430), (4857, 261373582429, 6670484372000),
  (4847, 376991373317, 42367742956920), (5284, 196024672163, 118292157353290),
  (5933, 274003948393, 21989137757700), (6373, 141296346460, 60676018552230),
  (4728, 23421038001, 106331408345230), (6408, 116687419680, 26895823889410),
  (4782, 156813683227, 42096911658350), (5399, 457611449409, 23890195810360)]

/-- `vsop87d_dict.py` 23987-24086. -/
def saturnR0_5 : List (ℕ × ℕ × ℕ) := [
  (5161, 14436456585, 241381508903260), (4858, 521378840436, 368649611465980),
  (5086, 173392381835, 33773251065900), (4650, 371029121290, 30508553696180),
  (4896, 367786531840, 24012579838100), (5949, 29956165181, 52401370669230),
  (4968, 253258931342, 98066817835880), (4944, 216189522746, 10405598206510),
  (5366, 354867806985, 10728555991260), (4917, 48641512683, 327412501778540),
  (5617, 627593478237, 11265400177420), (4524, 509539085552, 10314095832840),
  (5643, 152724336480, 10554045477340), (4504, 168251875362, 19603362005060),
  (4897, 490011892854, 10212956637210), (4525, 188735156553, 10304459010880),
  (4327, 145407229380, 40992341631960), (5095, 340640608336, 42711945573780),
  (5782, 355197606731, 2587460404613620), (4192, 16603430914, 95857677783100),
  (4976, 50639895683, 51153171782990), (4167, 594725762070, 31644005376640),
  (4353, 378587101731, 117187587326900), (5387, 203693287651, 243515573003500),
  (4067, 466592603130, 10601353552540), (4817, 353529781673, 96022130923370),
  (4048, 320024146722, 77523338944700), (4016, 600569143107, 94599421523210),
  (3989, 315130319196, 11562294719080), (4559, 559555355771, 77841478318470),
  (4153, 275042736587, 31634368554680), (3983, 200842137744, 59735901666110),
  (4212, 416852690218, 82399143422340), (5193, 71717111984, 81065811209910),
  (3927, 504361736754, 294350605412720), (4225, 2571003853, 75075952540),
  (4926, 112994881124, 52698265210890), (4170, 394116290117, 42240540518200),
  (4432, 399599046800, 39346109008430), (3840, 121234108241, 21207525516060),
  (3866, 420930793423, 9767614824720), (4440, 135536679738, 21160217440860),
  (3840, 43014354282, 21452293571540), (4724, 362039208608, 63841281360570),
  (4870, 575874599620, 124665747183630), (4449, 143384065964, 18498791978670),
  (3931, 236660272585, 90981873305460), (3787, 598932416906, 32595309721220),
  (3665, 72917314141, 2044686912510), (4243, 229103096797, 45342489381900),
  (3730, 624831601183, 15912442469020), (3900, 131013240315, 85001498801430),
  (5134, 197348901289, 52650957135690), (3621, 277435773661, 12353964334370),
  (3607, 532058842710, 40695447090300), (3802, 194444523548, 42118156490460),
  (3906, 302475451573, 31735507750310), (4473, 80804073855, 83821852822500),
  (4081, 208732468180, 98853248488500), (3843, 499347148246, 763481186260),
  (4467, 609037793116, 76025553592000), (3514, 397285766412, 42648631629140),
  (3504, 85064201666, 29912639426920), (4397, 168577228317, 82474219374880),
  (3581, 235235960566, 33780194662820), (4606, 348411642192, 91396333463880),
  (3790, 364538213705, 21626804085460), (3496, 95035381131, 43689313161450),
  (4422, 82822191292, 4328902917830), (3688, 283785443800, 73905790726950),
  (4439, 119409419107, 42193232443000), (3572, 277298538478, 44475743814070),
  (4420, 544308967028, 96340270297140), (4443, 373070830296, 3787240320690),
  (4322, 475680702521, 4084134862350), (3724, 59005210557, 25642806592190),
  (4471, 222367643527, 31883955021140), (4184, 152719196640, 29823262239190),
  (3534, 501937599570, 38698068252990), (3400, 322663067085, 411309430553580),
  (4556, 135715974815, 49575071515080), (4453, 180417064247, 82962050851590),
  (3617, 151036385224, 4164449777560), (3789, 480357656146, 23842887735160),
  (3514, 238272766645, 42671006546060), (3208, 174465274123, 95235700270750),
  (4398, 265839000906, 83258945393250), (4092, 307954777295, 6076695288680),
  (3813, 563047104819, 31542866181010), (3219, 622278803635, 75483890994860),
  (3102, 269222024257, 34373983746140), (4045, 402463772100, 37619561469690),
  (3576, 38532787280, 21499601646740), (3291, 549542015261, 14393412284210),
  (3981, 575449411958, 23916259053450), (3249, 58789568678, 61929035849450),
  (3114, 2831060137, 22116340196420), (3555, 312207684735, 104833622992530),
  (3010, 191180343491, 9353154666300), (3384, 181702854004, 44386366626340)]

/-- `vsop87d_dict.py` 24087-24186. -/
def saturnR0_6 : List (ℕ × ℕ × ℕ) := [
  (3222, 237342117781, 42951895218280), (3431, 592099840679, 57074476203920),
  (3271, 204947945059, 80672595883600), (3207, 544018976766, 40221916848780),
  (3091, 10717557454, 359051688744200), (2951, 176365810296, 42681063919710),
  (2958, 23653889192, 135443315884340), (2948, 459289832104, 42638574255490),
  (3506, 543222584214, 8493352695390), (2894, 569678330542, 126238608488870),
  (3682, 107122313007, 39557870223900), (2983, 525093816048, 31347110834980),
  (3117, 418767239237, 36679444583570), (2873, 445472312727, 36137781986430),
  (3521, 205528981993, 126163532536330), (3496, 187950759078, 43912836384820),
  (3012, 64439385874, 26302034806090), (2849, 112491777974, 26205714021440),
  (2910, 276192171681, 54153981451060), (3322, 608893948791, 10872184851110),
  (3181, 101419299056, 41800017116690), (2793, 38781777981, 21186280683950),
  (3091, 218216748751, 30683064210100), (3748, 389145855821, 22093390730060),
  (2982, 199831689446, 11791056905120), (2793, 125466684542, 21473538403650),
  (3512, 150965040301, 88543971066640), (2716, 80710391613, 75721715453420),
  (3137, 209889265033, 275154759969160), (2738, 489270330923, 46473122651380),
  (2875, 428436709414, 401000153131720), (3313, 301452486457, 33683873878170),
  (2746, 269963506928, 38038840039090), (3132, 219562786872, 296894541660),
  (3233, 60809684558, 317103224356680), (3034, 93246285284, 20543478891180),
  (3006, 591067479448, 270831298570), (3643, 558302397259, 42362924545940),
  (2625, 107042050691, 2357587323610), (3495, 19887562030, 57616138801060),
  (2590, 21252773750, 11025450532920), (2704, 612908233599, 57222923474750),
  (2568, 17571588314, 105620053645150), (2583, 296927378731, 38405992122310),
  (2555, 396441052072, 43079097657000), (2786, 254945911818, 19589060769870),
  (2869, 482964665921, 71074673161820), (2534, 531005598763, 42734895040140),
  (2618, 122081401503, 3664856292950), (3464, 232811328200, 28537238101960),
  (3374, 334109586766, 16209337010680), (2694, 464149271687, 14096517742550),
  (2603, 99527295832, 9230770638560), (3140, 540790277580, 32824071907260),
  (2603, 431532790880, 56193429400900), (2987, 82758128867, 4557665103870),
  (2959, 335623851523, 27385360000370), (2561, 54160683162, 10775864066460),
  (2900, 120691455948, 46202291352810), (2648, 190547819027, 8811492069160),
  (2461, 468211868869, 284041327990860), (2534, 500311256556, 43126405732200),
  (2521, 332160472310, 13606981631590), (2945, 106452531856, 73269511979410),
  (2654, 136744710395, 46053844081980), (3297, 133975572602, 30560680182360),
  (2634, 229995533800, 51939602435610), (2805, 562255444533, 169927921650320),
  (2439, 514733660159, 30386169668440), (2434, 371460437051, 421618707975440),
  (2416, 376296045457, 7775054398390), (2803, 255280894914, 50531194270640),
  (2592, 332836551071, 11015813710960), (3074, 171462387764, 25658812461630),
  (3295, 81766682522, 70511765732570), (3183, 615742006608, 10924311337290),
  (2908, 538534195293, 31516802937920), (2326, 142604031905, 13154696222180),
  (2427, 204627850740, 12450285119020), (2632, 141253794767, 21165456403530),
  (2297, 138016674676, 42584743135060), (2318, 627716072818, 31714262918200),
  (2310, 486442292404, 325989792378380), (2873, 110206537875, 786430652620),
  (2616, 11849676899, 13310087089930), (3213, 449320461690, 43222726516850),
  (2276, 604688191978, 21410224459010), (2276, 196882478275, 21249594628590),
  (2917, 96774661857, 10038446123290), (2890, 572610904534, 32202094394910),
  (2829, 266887892162, 14148644228730), (2695, 147488571070, 4253826965290),
  (2697, 534002228297, 43201481684740), (2229, 440717937246, 54073666535850),
  (2214, 243714413196, 42685882330690), (2512, 468291916658, 159618644228460),
  (2202, 591122030007, 86742347575360), (2856, 94736445171, 4105379694460),
  (2396, 10516628717, 20693630796260), (2345, 116685267780, 64086049416050)]

/-- `vsop87d_dict.py` 24187-24286. -/
def saturnR0_7 : List (ℕ × ℕ × ℕ) := [
  (2263, 462327588198, 18802630117250), (2214, 397566024178, 42633755844510),
  (2274, 494055830720, 400288798431640), (2541, 83705615200, 1235285260454480),
  (2145, 340120044084, 11116952906590), (2895, 607389082608, 291401423582380),
  (2520, 105396310009, 18472728735580), (2448, 349820841117, 48173606947030),
  (2343, 286472924644, 20707932031450), (2964, 596264929181, 46595506679120),
  (2122, 404560058177, 11807062774560), (2452, 435251210402, 138288734684660),
  (2131, 61211416273, 33514181775230), (2116, 476181734842, 76588461021250),
  (2245, 567078632283, 646792575796160), (2425, 84789834075, 55013783421970),
  (2227, 115684015463, 22731374111850), (2314, 613104971819, 273020695868920),
  (2344, 35844885568, 21744369702220), (2529, 307975959821, 77448262992160),
  (2523, 175026771081, 157802719501990), (2111, 424637589094, 9687299909510),
  (2826, 101974994073, 8731177153950), (2906, 375374302356, 42808266358430),
  (2113, 219787343926, 44923210812500), (2142, 119671359858, 20915449385380),
  (2882, 259371585952, 3961750834610), (2078, 287503604503, 1401464568050),
  (2090, 199032225653, 44157604440300), (2519, 299001165551, 74527768239300),
  (2035, 537147785849, 104122268292450), (2054, 111817372961, 84290144101350),
  (2023, 294559148702, 66820846196530), (2529, 434280159004, 22189711514710),
  (2554, 556906955622, 21419286731530), (2712, 160469055827, 105099635880120),
  (2350, 336541706919, 22020019411770), (2015, 260446576036, 31564111013120),
  (2158, 164945261993, 21966188291340), (2120, 293968038721, 30412232911530),
  (2357, 194433441808, 23390602325750), (2579, 454124062411, 48470501488690),
  (2046, 545531068264, 20055647414470), (2040, 204492641594, 109709427470170),
  (2675, 120234167733, 2857180808220), (2528, 469268465973, 63744960575920),
  (2314, 281193072994, 2512978191360), (2689, 503868493349, 126949963188950),
  (2115, 310772296248, 127661317889030), (2712, 149710379127, 334061242669980),
  (2138, 452114042624, 37890392768260), (2708, 1014338204, 38994962794650),
  (2560, 575783882561, 54450875992720), (2028, 24331359951, 14659425171800),
  (2096, 144475430956, 86424208201590), (1897, 463194412388, 22030076785420),
  (1901, 178319572727, 19285222631290), (2011, 411578325523, 31587060479480),
  (2014, 226726355818, 19810879358990), (1905, 215527255015, 32668681039510),
  (1949, 395440811214, 10361403908040), (2098, 524613314798, 17542669223110),
  (1884, 566018186202, 131039337013970), (1911, 260665446600, 30141401612960),
  (2160, 342888079793, 42000590873700), (2325, 589632178100, 81506334611420),
  (1914, 22451332248, 17165459766240), (1854, 4278915026, 23374596456310),
  (1973, 268640259480, 76981676347560), (1941, 61369890353, 348742411322340),
  (1836, 341496980986, 19577298761970), (2554, 235660179716, 21240532356070),
  (1822, 405510232882, 63994547042380), (1883, 627079329518, 1667477455640),
  (1865, 17460226411, 24479166482700), (2097, 458369520569, 31691313451840),
  (1879, 276480572708, 2845418800320), (2111, 292457831824, 32892204262880),
  (2077, 35943033580, 58949471013490), (1825, 404945265223, 19040454575810),
  (1895, 389414880651, 33455111692130), (2425, 376754213762, 2555821217647960),
  (2218, 185341154236, 63523141986800), (1782, 86927461254, 9279783348010),
  (2432, 378026263567, 125452177836250), (2106, 17285594964, 35426427286350),
  (1791, 623892012939, 167082502850000), (1996, 140940081042, 23070758317730),
  (1753, 186660297451, 24175328344120), (2093, 239366777880, 18743560034150),
  (2007, 354083120293, 22679247625670), (1949, 136533052698, 138517496870700),
  (1737, 267583588366, 636278747540), (1868, 424454204649, 111918567522950),
  (1896, 381474515719, 31097524368520), (1860, 367887919389, 132143907040360),
  (2305, 353252557028, 157091364801910), (2008, 388504783546, 63893407846750),
  (1928, 264393870433, 52575881183150), (1807, 76057354967, 6618357885820)]

/-- `vsop87d_dict.py` 24287-24386. -/
def saturnR0_8 : List (ℕ × ℕ × ℕ) := [
  (1824, 85822155861, 63984910220420), (2221, 482210413830, 158589150154610),
  (2227, 458488941022, 27161836777000), (1897, 64334758250, 5565914345610),
  (1792, 514800434, 82792358748650), (1831, 369768852728, 17245774681450),
  (1790, 480062977720, 357628979344040), (1698, 72475212282, 29519424100610),
  (1744, 345256183290, 23857188970350), (2334, 151845210531, 17001006625970),
  (1669, 444620549295, 431927985397300), (1939, 343927826945, 10257150935680),
  (1733, 596815907422, 83769726336320), (1686, 212870436615, 49155792945680),
  (1651, 320586624475, 28117959532560), (1884, 424447812450, 1349338081870),
  (1880, 33845094634, 21494362684070), (1817, 307678560214, 22052451702340),
  (1872, 379328892492, 39265794093220), (2195, 193786776664, 25976951835400),
  (1881, 449314034712, 19980571461930), (1662, 29659841675, 31490739694830),
  (1626, 229697402942, 306793946934820), (1927, 100706624515, 2682670294300),
  (1621, 1495920679, 137970595310890), (1655, 415494230496, 432639340097380),
  (1719, 597443860990, 15253214255120), (1653, 565633302949, 44868959140380),
  (1790, 373709604091, 1003430830760), (1600, 228430251221, 74920983565610),
  (1770, 3256515992, 36434676528090), (1939, 593191442558, 24994765836750),
  (1988, 478810872536, 10186893394120), (1667, 552149899431, 22997386999440),
  (2215, 355121116323, 59465070367540), (1950, 80878923373, 104908698945070),
  (1773, 255608046714, 998575935677140), (2088, 233165208016, 42044785172170),
  (2107, 243624356568, 45368552624990), (1907, 472569972805, 85712853501510),
  (1609, 496540433043, 28511174858870), (2152, 487024306306, 18621176006410),
  (1685, 568609178354, 20003520928290), (1752, 521532265401, 2544800585526019),
  (1870, 614683645342, 34736317418380), (1731, 195944272122, 93494851496820),
  (1680, 556246697700, 17097327410620), (1652, 124521351050, 39814400287280),
  (1548, 38524522125, 1726547538740), (1577, 23430114545, 43467494572330),
  (1652, 284480428863, 38554439393140), (1770, 115057996280, 19996577331370),
  (1528, 402240583348, 23619364511790), (2118, 547803429266, 36908206769610),
  (1543, 254353574089, 63273555520340), (1504, 594300855424, 28021638747910),
  (1495, 219380669867, 40747573576480), (1894, 188797605501, 59884348936940),
  (1515, 470072295492, 21129335786790), (1767, 311910667879, 292112778282460),
  (1515, 331498374761, 21530483300810), (1728, 528095966912, 21951887056150),
  (1906, 524236020775, 24846318565920), (1607, 80041605735, 64234496686880),
  (1640, 293387205029, 136472809958190), (1585, 77219822539, 66123792731640),
  (1458, 567666822477, 63283192342300), (1866, 440562835971, 97110695080320),
  (1838, 48492190760, 112704998175570), (1903, 518692835916, 201567108615980),
  (1590, 280043208070, 63374694715970), (1489, 410155671855, 7783711123384659),
  (1573, 423741356107, 20389792657680), (1690, 65475720351, 270071514038580),
  (1872, 354376036064, 35452490529440), (1419, 453129346734, 22460542813280),
  (1575, 352476647615, 37390799283650), (1817, 395203885550, 607689030155420),
  (1446, 541423319377, 31787634236490), (1552, 189030720529, 130492435454160),
  (1394, 186243646383, 91375088631770), (1940, 436562864826, 43274853003030),
  (1655, 131748248488, 2566841849769900), (1438, 512958189872, 7181265315070),
  (1929, 490721606846, 20639799675830), (1533, 210965059985, 37864329525170),
  (1421, 622897936063, 90440210708320), (1450, 198065714692, 20597310011610),
  (1584, 594110940455, 122621060271120), (1510, 377771207288, 22270026429920),
  (1670, 251954641624, 97673602509570), (1823, 160093991502, 114113406340540),
  (1564, 394804398924, 956627471289620), (1406, 365940442223, 31650374424120),
  (1653, 362394476466, 96813800538660), (1495, 77832279170, 595957043333400),
  (1408, 524970924980, 31627999507200), (1724, 25483952164, 12518417474640),
  (1426, 226871672572, 1740848773930), (1881, 412588105003, 56214674233010)]

/-- `vsop87d_dict.py` 24387-24486. -/
def saturnR0_9 : List (ℕ × ℕ × ℕ) := [
  (1370, 474474866880, 135761455258110), (1485, 218712736768, 988978012955360),
  (1369, 131846306523, 116083017300510), (1394, 566924517860, 173699156101570),
  (1375, 16983286236, 34639996633730), (1525, 240244831911, 41943645976540),
  (1359, 268668516027, 31076279536410), (1396, 367055397940, 25345912050530),
  (1454, 549356262440, 50456118318100), (1813, 21882066860, 26370167161710),
  (1330, 301736059716, 25414044406150), (1498, 17578085903, 15578297225810),
  (1509, 513129901759, 76885355562910), (1550, 144225397189, 189441906467650),
  (1447, 144933809994, 89335640681930), (1306, 576425101758, 71467888488130),
  (1660, 134160526151, 32261164478010), (1347, 300388920953, 84363515419640),
  (1432, 343786149731, 25117149864490), (1510, 439762427873, 2527279426550),
  (1587, 517106904014, 14169889060840), (1477, 547518377610, 22604171673130),
  (1356, 424406292182, 33217287233570), (1644, 174367211793, 6788049988760),
  (1407, 579229630947, 18816931352440), (1575, 9808372057, 70214871190910),
  (1765, 493410889383, 20151968199120), (1318, 491605557404, 1752610781830),
  (1701, 447360878108, 38427236954420), (1304, 604155032791, 2586349509650),
  (1269, 491035989349, 35499798604640), (1620, 554960841244, 26036021918500),
  (1263, 116521999431, 25583736509090), (1744, 370453251764, 14711551657980),
  (1579, 431561365365, 222897018159780), (1557, 57740217353, 317814579056760),
  (1302, 32055726013, 11976754877500), (1405, 320407486040, 39510562148700),
  (1234, 234766954239, 31867949151700), (1519, 474629629688, 10017201291180),
  (1573, 400132484524, 126429545423920), (1222, 10709243166, 137259240610810),
  (1205, 24105241435, 46675821594330), (1188, 127112537278, 118440604624120),
  (1280, 485454052139, 53591074021810), (1482, 447166692910, 76343692965770),
  (1233, 164803509193, 43366355376700), (1476, 376634399110, 27258157561650),
  (1199, 178020373551, 10234201469320), (1186, 472162748523, 79568025857210),
  (1291, 442697938285, 1022039909321180), (1576, 240263038916, 34863519857100),
  (1497, 344614317326, 302422055704320), (1175, 485145058205, 43375992198660),
  (1262, 579416346069, 53197858695500), (1486, 439599352105, 105544977692610),
  (1351, 46461977407, 70756533788050), (1230, 518147817992, 75239122939380),
  (1175, 435535063059, 389268166309700), (1581, 549361132323, 41953282798500),
  (1247, 422328749428, 11312708252620), (1145, 226067253357, 19912018554620),
  (1385, 89711064123, 607370890781650), (1228, 455057016747, 68005731138130),
  (1470, 158708185256, 40918970313670), (1366, 399684537321, 606584460129030),
  (1131, 156474593118, 19683676920270), (1163, 575528918663, 230360876781320),
  (1142, 435845106342, 183461531963620), (1244, 193187654929, 62322251175760),
  (1136, 313253323524, 61144309831080), (1425, 265840274172, 125377101883710),
  (1114, 343048279234, 77130123618390), (1314, 15326588489, 49330303459600),
  (1109, 295808402860, 109162525910360), (1177, 388159541809, 12836556848410),
  (1150, 469140569690, 127202438720), (1527, 109983755253, 68302625679790),
  (1304, 524544813643, 565029211067820), (1347, 411616699496, 9746369992610),
  (1085, 70231952018, 116640685767090), (1224, 422994822530, 82717282796110),
  (1142, 536157631813, 19902381732660), (1373, 89371361814, 79961241183520),
  (1085, 115969472512, 39828701522470), (1098, 375659421786, 31839760722670),
  (1136, 135127769399, 20592491600630), (1108, 603201954623, 20644618086810),
  (1146, 18236094571, 638616862421000), (1216, 49809632153, 117898942026980),
  (1295, 232056477953, 1000391860403610), (1082, 196611069200, 370072320866140),
  (1094, 512244388591, 31438613208650), (1464, 454056066665, 124814194454460),
  (1277, 542029902662, 999605429750990), (1248, 21625135029, 10160830151030),
  (1055, 553725373260, 157877795454530), (1265, 585587479852, 8285835341460),
  (1058, 73824266822, 67091677495100), (1127, 363458498010, 58238116313410)]

/-- `vsop87d_dict.py` 24487-24586. -/
def saturnR0_10 : List (ℕ × ℕ × ℕ) := [
  (1188, 210062104535, 42388987789030), (1217, 249656109071, 31172600321060),
  (1080, 396349373526, 11887377689770), (1175, 91096377814, 74006929922580),
  (1087, 546774426742, 49447869076360), (1080, 349168860514, 84704604259770),
  (1095, 97418295319, 115929331067010), (1078, 175579678521, 145752593306200),
  (1087, 481206824168, 10968505635760), (1293, 2397468965, 272309341168840),
  (1190, 449552956868, 42930650386170), (1127, 84707518843, 4875804477640),
  (1047, 458416926615, 8975945209430), (1251, 116783030789, 45516999895820),
  (1122, 572161306640, 7826370942472259), (1027, 16330222064, 22976142167330),
  (1069, 237188773221, 84853051530600), (1252, 528238896229, 608082245481730),
  (1181, 522299379363, 145995656727430), (1382, 51603096285, 77400954916960),
  (1064, 595222326171, 114431545714310), (1083, 504862249728, 62986297800640),
  (1061, 338604454777, 2708733537390), (1415, 485796248007, 233206295581640),
  (1082, 407686503205, 124517299912800), (1112, 607617329506, 87046185713940),
  (1072, 73647405514, 148279872732750), (1322, 281015928946, 22333340374560),
  (1398, 155232715558, 2577151127191760), (1065, 398884050015, 68318631549230),
  (1008, 519594380826, 31613123722570), (1197, 79148395839, 958050180689780),
  (1402, 482957073563, 88379517926370), (1064, 465334775068, 20199276274320),
  (1108, 588857586823, 65716276170140), (996, 499081076034, 42675824957040),
  (996, 160533807224, 42643813218160), (1028, 592128319450, 10850940019000),
  (1004, 354259597860, 75403576079650), (1214, 81213286478, 177391780271860),
  (1318, 60269176130, 112311782849260), (1327, 475885008900, 32180849562800),
  (1014, 579119811472, 646081221096080), (1178, 47169015111, 49596316347190),
  (999, 595030119388, 390690875709860), (1033, 375433174131, 41481877742920),
  (1002, 139171012432, 125134038462480), (990, 132621236288, 126874887236410),
  (1275, 195417923977, 75780785536520), (1174, 604352585298, 22507850888480),
  (1174, 543253033568, 84926422848890), (1004, 533434806968, 4620979048510),
  (1108, 128177889943, 29430046912880), (976, 183523959034, 588970672340),
  (971, 338563950019, 30609692891810), (1050, 388449467091, 63226247445140),
  (1050, 326096036982, 15971512552120), (1041, 236429894351, 82154375366860),
  (1218, 461739999906, 99022940591440), (1342, 155614528399, 49893210888850),
  (967, 384645372731, 60447256366190), (1171, 42265751679, 1001103215103690),
  (965, 5396772193, 96250893109410), (1096, 304685199735, 60840471692500),
  (1166, 614999706886, 73731280213030), (986, 371830385737, 123561177157240),
  (953, 79704964354, 1646232623530), (976, 105304205075, 833738727820),
  (1142, 106057209808, 36997583957340), (1060, 436236322604, 63330500417500),
  (1138, 431859245106, 9842690777260), (1006, 589037944896, 1000709999777380),
  (967, 156852913547, 15763995198190), (1082, 99548769517, 414460158420),
  (1009, 615037679495, 40132539661050), (981, 237620383333, 3521227433100),
  (1011, 542685471402, 11072758608120), (989, 411575312649, 41385556958270),
  (1024, 190798238649, 117580802653210), (1079, 495981991427, 63182053146670),
  (982, 302842195594, 34741135829360), (979, 374615289445, 70045179087970),
  (928, 522236951137, 117352040467170), (912, 414451390992, 46972716135990),
  (938, 118273838991, 25435289238260), (977, 126684849112, 10457724692690),
  (1134, 587478488618, 605873105428950), (1092, 451789158271, 53213864564940),
  (1132, 455420027150, 191257831194120), (915, 487266214195, 1891000679010),
  (915, 596624579967, 198721689815660), (1039, 240020830681, 647503930496240),
  (965, 498927479154, 39435486196160), (964, 360903715900, 328123856478620),
  (897, 281660605059, 31623181096220), (1008, 578024010734, 50286426215160),
  (1005, 612431717236, 627596230299060), (895, 609245508513, 31655192835100),
  (1224, 173535287415, 512060114558360), (1138, 292901543353, 103729052966140)]

/-- `vsop87d_dict.py` 24587-24686. -/
def saturnR0_11 : List (ℕ × ℕ × ℕ) := [
  (924, 570601816488, 61483694036960), (893, 525155704274, 47535623565240),
  (1042, 110027795842, 151822344997960), (890, 403192782386, 131432552340280),
  (926, 335110915055, 63570450062000), (1130, 549282680494, 9294084583200),
  (890, 212933822393, 338433133900480), (967, 586215202069, 1333332212430),
  (1004, 173116475997, 1031637832042960), (1226, 352834223937, 8041067285980),
  (1029, 490620832171, 1912245511120), (996, 76740358631, 73342883297700),
  (910, 408904906301, 333349887969900), (1235, 123871819142, 35723321828010),
  (1218, 18349810348, 109040141882620), (864, 471917415767, 62025356634100),
  (935, 145887009044, 104291960395390), (866, 404792682992, 52252923398400),
  (1158, 543322209110, 108912939443900), (860, 49220052417, 6495973858080),
  (1190, 558965369650, 281092146160520), (957, 312914047010, 62859095361920),
  (861, 569790389801, 10384353374400), (1037, 591424823262, 1130633269480),
  (918, 21424702155, 37301422095920), (836, 302501867546, 38724131496080),
  (1158, 333343863758, 629018939699220), (856, 81593288669, 90737105249980),
  (1036, 311936047271, 542987946823940), (853, 623618175592, 93888066823130),
  (982, 339082880963, 52161421024730), (851, 514029961564, 80279380557290),
  (828, 28399876908, 33848327018440), (868, 189151676387, 62715466502070),
  (878, 267671626912, 68865533109040), (921, 18441593712, 380381598288000),
  (821, 74694467095, 115217976366930), (841, 242616504698, 62588264063350),
  (862, 335273419872, 42532616648880), (887, 346938383985, 174878802080500),
  (815, 595428642326, 32105773610260), (958, 135525670354, 120183158032300),
  (905, 543093361027, 23687496867410), (862, 324167644516, 42787021526320),
  (793, 501131700831, 10999387289830), (791, 221809404489, 11041876954050),
  (842, 504957483651, 44412429869430), (887, 423752031714, 355391152213780),
  (851, 464229745145, 410598075853500), (1067, 469271921916, 55969906177530),
  (966, 455013458162, 936008916445900), (977, 150925667031, 18647239249500),
  (1092, 58153747940, 20326478713040), (997, 24589891452, 43993151300030),
  (786, 384829878956, 19438908864790), (774, 376050639310, 21914061805160),
  (845, 421602090805, 264845482547300), (962, 30590569897, 22934073054800),
  (763, 5577842075, 84613101886100), (839, 568124142701, 262000063746980),
  (818, 252609626540, 2630120223701220), (929, 71906225883, 74028174754690),
  (895, 583218231202, 453969249641180), (939, 368460642343, 81777165909990),
  (755, 490024080821, 53287235883230), (784, 114096100609, 55103160609700),
  (899, 185252071775, 83578789401270), (753, 4254534997, 153473816584160),
  (1033, 100137993270, 13411226285560), (851, 612272864540, 147568518032670),
  (797, 514322789256, 47365931462300), (729, 494931618796, 47610699517780),
  (852, 311058720799, 23242155054920), (783, 450805467439, 115142900414390),
  (751, 92289775523, 188412412393800), (832, 419686348297, 2920494752860),
  (720, 40961041030, 52262560220360), (722, 396121088528, 147493442080130),
  (788, 99170388242, 12184272231430), (722, 416734185316, 23220910222810),
  (970, 232204039048, 56660016045500), (814, 519337022083, 94821240112330),
  (724, 230837674225, 94912742486000), (770, 589605163084, 15667674413540),
  (705, 540102118863, 119396727379680), (809, 356474059969, 84533207522580),
  (755, 394580797273, 45172797278960), (731, 611847213487, 123954392483550),
  (747, 140599730465, 78234693644780), (861, 184312374221, 98460033162190),
  (695, 478088165969, 1041947109464820), (804, 107998437400, 8900869256890),
  (828, 586080569334, 84511962690470), (692, 338736418117, 648926139842860),
  (694, 307863807714, 31660431797770), (690, 586681311380, 31617942133550),
  (714, 538707933404, 56782400073240), (767, 12081849650, 48588067105450),
  (820, 187877245664, 49989531673500), (705, 57839934869, 105375285589670)]

/-- `vsop87d_dict.py` 24687-24691. -/
def saturnR0_12 : List (ℕ × ℕ × ℕ) := [
  (684, 488442270630, 254536205125440), (689, 614296395253, 62248879857470),
  (823, 350224755884, 87757540414020), (827, 259300433753, 23294281541100),
  (735, 305650026582, 6691729204110)]

/-- `vsop87d_dict.py` 23486-24692. -/
def saturnR0 : List (ℕ × ℕ × ℕ) := List.flatten [
  saturnR0_0, saturnR0_1, saturnR0_2, saturnR0_3, saturnR0_4, saturnR0_5, saturnR0_6, saturnR0_7, saturnR0_8, saturnR0_9, saturnR0_10, saturnR0_11, saturnR0_12]

/-- `vsop87d_dict.py` 24694-24793. -/
def saturnR1_0 : List (ℕ × ℕ × ℕ) := [
  (6182981282, 25843515034, 21329909543800), (506577574, 71114650941, 20618554843720),
  (341394136, 579635773960, 42659819087600), (188491375, 47215719444, 22041264243880),
  (186261540, 314159265359, 0), (143891176, 140744864239, 711354700080),
  (49621111, 601744469580, 10309277421860), (20928189, 509245654470, 63989728631400),
  (19952612, 117560125007, 41948464387520), (18839639, 160819563173, 11020632121940),
  (12892827, 594330258435, 43371173787680), (13876565, 75886204364, 19907200143640),
  (5396699, 128852405908, 1422709400160), (4869308, 86793894213, 32350541665740),
  (4247455, 39299384543, 22752618943960), (3252084, 125853470491, 9597922721780),
  (2856006, 216731405366, 73587651353180), (2909411, 460679154788, 20225339517410),
  (3081408, 343662557418, 52257741809380), (1987689, 245054204795, 41237109687440),
  (1941309, 602393385142, 20936694217490), (1581446, 129191789712, 21011770170030),
  (1339511, 430801821806, 85319638175200), (1315590, 125296446023, 11731986822020),
  (1203085, 186654673794, 31639186965660), (1091088, 7527246854, 21648048917570),
  (954403, 515173410519, 64701083331480), (966012, 47991379141, 63278373931320),
  (881827, 188471724478, 105226838318840), (874215, 140224683864, 22434479570190),
  (897512, 98343776092, 52969096509460), (784866, 306377517461, 83896928775040),
  (739892, 138225356694, 62567019231240), (612961, 303307306767, 6373589830340),
  (658210, 414362930980, 30927832265580), (649600, 172489486160, 74299006053260),
  (599236, 254924174765, 21723124870110), (502886, 212958819475, 393215326310),
  (413017, 459334402271, 41555249061210), (356117, 230312127651, 72876296653100),
  (344777, 588787577835, 44082528487760), (395004, 53349091102, 95628915597060),
  (335526, 161614647174, 136866025284500), (362772, 470691652867, 30216477565500),
  (321611, 97931764923, 318139373770), (277783, 26007031431, 19513984817330),
  (291173, 283129427918, 115536115740700), (264971, 242670902733, 8886568021700),
  (264864, 582860588985, 14956319713460), (316777, 358395655749, 51546387109300),
  (294324, 281632778983, 1104570026390), (244864, 104493438899, 94206206196900),
  (215368, 356535574833, 49033408917940), (264047, 128547685567, 105938193018920),
  (246245, 90730313861, 19195845443560), (222077, 513193212050, 26992144674060),
  (194973, 456665009915, 84608283475120), (182802, 267913220473, 12747179660680),
  (181645, 493431600689, 7478159856730), (174651, 344560172182, 13703302416240),
  (165515, 599775895715, 53680451209540), (154809, 119720845085, 26598929347750),
  (169743, 463464467495, 28414854074220), (151526, 52928231044, 33061896365820),
  (152461, 543886711695, 42266603761290), (157687, 299559914619, 34077089204480),
  (140630, 202069760726, 104515483618760), (139834, 135282959390, 168505212250160),
  (140977, 127099900689, 20300415469950), (136013, 501678984678, 35181659230870),
  (153391, 26968607873, 127268102562720), (129476, 114344730612, 2134064100240),
  (127831, 253876158952, 147175302706360), (126538, 300310970076, 27703499374140),
  (100277, 361360169153, 106649547719000), (103169, 38175114761, 20373786788240),
  (107527, 431870663477, 21085141488320), (95934, 79463744168, 125845393162560),
  (82663, 28181414606, 23463973644040), (97986, 256085956186, 19120769491020),
  (97389, 326245865063, 83185574074960), (72227, 437984630380, 86030992875280),
  (70639, 73191513920, 43764389113990), (70447, 87698401733, 42341679713830),
  (72057, 558013290518, 42977958461370), (73332, 62505906432, 137577379984580),
  (66433, 268414462465, 40525754987360), (63812, 175051498180, 136154670584420),
  (61601, 109332288242, 200144399215820), (67006, 6872766216, 40843894361130),
  (68945, 247127505057, 94917560896980), (60456, 225094790113, 178814489672020),
  (67074, 545365870159, 20076892246580), (65579, 5539079332, 158907289528380),
  (49320, 417243429807, 13851749687070), (50648, 626867505289, 22359403617650),
  (55166, 459491533823, 62885158605010), (47916, 83929741626, 1029494073850),
  (46691, 217322569098, 31219908396260), (54179, 28360076018, 12443341522100)]

/-- `vsop87d_dict.py` 24794-24893. -/
def saturnR1_1 : List (ℕ × ℕ × ℕ) := [
  (49511, 379960349195, 21574677599280), (40136, 518161452756, 147886657406440),
  (39302, 56257369109, 157484580128220), (34962, 468487505703, 3813303563780),
  (42770, 298582069454, 114824761040620), (36521, 63453270366, 5269019803950),
  (39752, 28412706854, 13140394986990), (31777, 519036499973, 7626607127560),
  (33041, 197964846430, 14244965013380), (42053, 483017951800, 28808069400530),
  (30757, 147903923433, 167793857550080), (42829, 338225543528, 20863322899200),
  (29245, 509869866956, 65412438031560), (29165, 495664881649, 179525844372100),
  (29136, 274747553685, 40450679034820), (32689, 612099521344, 14563104387150),
  (28008, 83185907283, 231783586181480), (27725, 224364073545, 43053034413910),
  (29939, 196415498448, 210453676637680), (32982, 328236160491, 22286032299360),
  (31772, 602453027348, 190546476494040), (26959, 524308283338, 38846515523820),
  (26514, 99638302878, 10702492748170), (25421, 287336642463, 70363318461740),
  (24908, 107713811775, 9991138048090), (24955, 623974037842, 10627416795630),
  (24894, 81040976807, 31245971639350), (24340, 54867402916, 21426230328450),
  (28441, 82630052794, 169216566950240), (23219, 507995629354, 47928838891550),
  (24362, 310643455533, 21233588759150), (21951, 606688237952, 8582729883120),
  (22046, 389863665506, 56363121503840), (22596, 486725457223, 29505122865420),
  (21256, 510797617452, 33365734504400), (25985, 220813879137, 126556747862640),
  (20904, 328855303434, 7084944530420), (21505, 379541155976, 34788443904560),
  (22067, 422716352578, 21796496188400), (20629, 168732248608, 23145834270270),
  (21429, 308914428467, 55406998748280), (21310, 38868340861, 31957326339430),
  (20521, 245651851283, 1815924726470), (26055, 427554951169, 48322054217860),
  (20703, 512057936320, 36286229257260), (22047, 551249354809, 34321857259960),
  (19443, 202441679295, 31321047591890), (20163, 508481373110, 75010360753340),
  (20125, 342997916125, 21334727954780), (24196, 64787472796, 20788246946660),
  (21977, 72894956852, 9916062095550), (21120, 269286728009, 146463948006280),
  (17192, 471525117969, 211165031337760), (18540, 4817255506, 24554242435240),
  (17521, 383662880684, 49744763618020), (16107, 422374822303, 56511568774670),
  (21607, 416647257628, 244768055480), (15979, 27376396113, 22582926841020),
  (16831, 141134653939, 11413847448250), (15626, 282768623405, 8175213321620),
  (15499, 120606390539, 199433044515740), (15168, 384591816174, 116247470440780),
  (16436, 304752365976, 13458534360760), (15870, 33026420429, 189123767093880),
  (20370, 23170286692, 21325091132820), (16291, 170643197929, 242092863603340),
  (16280, 494159427320, 35744566660120), (18076, 569515344123, 5662235130260),
  (13724, 57240190030, 263422773147140), (17355, 355311137444, 21892816973050),
  (13740, 570545527289, 9204707395470), (15328, 131338692850, 21621985674480),
  (12538, 519222019427, 63596513305090), (12815, 160151130870, 32032402291970),
  (13043, 45068441373, 116958825140860), (11984, 594916123570, 54391805909620),
  (11753, 280279347133, 21749188113200), (14746, 556520105813, 34470304530790),
  (12762, 163557330778, 27310284047830), (11855, 246234840263, 72164941953020),
  (13309, 575641013916, 222185663459700), (14471, 45316163629, 200855753915900),
  (11840, 175720772380, 16060889739850), (12374, 101456317602, 32972519178090),
  (10747, 158065203003, 21277783057620), (12758, 191952373240, 158195934828300),
  (11944, 444720922423, 3224332891440), (11865, 510696147162, 466586644600),
  (11861, 430847607078, 61855664531160), (10036, 48709852137, 30534616939270),
  (12777, 374412991331, 50835032409220), (10677, 76645916273, 21871572140940),
  (11351, 300009819697, 19832124191100), (10249, 240923650192, 54695644048200),
  (9984, 263882014753, 41630325013750), (9345, 545917317860, 41406801790380),
  (9317, 446380159546, 242804218303420), (9928, 404821559448, 6225142559510),
  (12767, 343273835457, 25887574647670), (9733, 161066324680, 32743756992050)]

/-- `vsop87d_dict.py` 24894-24993. -/
def saturnR1_2 : List (ℕ × ℕ × ℕ) := [
  (11163, 240665325234, 178103134971940), (10608, 207480020830, 21382036029980),
  (9125, 292369523159, 127979457262800), (9525, 110338403136, 11338771495710),
  (9805, 328427768485, 27555052103310), (11263, 189402915826, 56118353448360),
  (8572, 217858055966, 42511371816770), (8577, 195484887975, 3542472265210),
  (10157, 9037368733, 18227960680100), (11807, 371278037583, 35033211960040),
  (8595, 183382454431, 62960234557550), (8396, 376782674303, 25143213107580),
  (8460, 35676476459, 61780588578620), (8250, 531140994372, 6522037101170),
  (8342, 138307663880, 148447270830), (7987, 513622898170, 2209140052780),
  (8377, 91817077859, 148598012106520), (7980, 94199750915, 231072231481400),
  (8898, 54037636841, 16805251279940), (8233, 345785310349, 42415051032120),
  (8034, 338451795597, 14414657116320), (7871, 514041888473, 35893013930950),
  (8868, 613541788772, 62173803904930), (7523, 575475671698, 44793883187840),
  (7515, 218967849979, 26450482076920), (8083, 142661116937, 273732050569000),
  (8199, 96419579079, 76736908292080), (8232, 35471613534, 27851946644970),
  (8226, 544467204721, 25494359321360), (6779, 119567671732, 541662597140),
  (8928, 488240256153, 12035824960600), (7845, 456376829397, 28096714700450),
  (6566, 350152072308, 956122755560), (6398, 33471834269, 295061960112800),
  (6881, 339438820076, 9889998852460), (7418, 452451404934, 562907429250),
  (8021, 94470052446, 63671589257630), (6134, 18013315689, 220762954059540),
  (7153, 385218295688, 21404985496340), (6046, 466733263196, 54302428721890),
  (6365, 212000811873, 27406604832480), (6481, 531032923608, 607689030155420),
  (5935, 616808119163, 65094298657790), (5752, 355773840903, 107360902419080),
  (6438, 44934410249, 1000709999777380), (6283, 320942251433, 21944943459230),
  (5542, 361193204407, 12598732389850), (5522, 384217355164, 18105576652360),
  (5777, 300590926498, 12125202148330), (6670, 165236689367, 189835121793960),
  (7591, 10483002359, 232494940881560), (5881, 104006410206, 999287290377220),
  (5609, 483142709229, 64307868005170), (5569, 223863483508, 103804128918680),
  (5755, 591598458372, 606266320755260), (5845, 610234689502, 20910630974400),
  (5577, 81426649853, 47217484191470), (5247, 56496127013, 19269216761850),
  (5493, 581071309534, 23767811782620), (5148, 485160826999, 26747376618580),
  (6122, 211480301005, 209742321937600), (6188, 459441762166, 20767002114550),
  (6303, 75806431119, 21037833413120), (5102, 401017179605, 20522234059070),
  (6583, 179054357427, 1253017297220), (4902, 85099521860, 24723934538180),
  (4918, 403512681632, 48736514376280), (5818, 548495503489, 253824850425360),
  (4855, 418197778083, 274443405269080), (4885, 25103933716, 12991947716160),
  (5748, 55968589618, 11642609634290), (4901, 448628916012, 29126208774300),
  (4720, 557686152365, 34225536475310), (5962, 512885837444, 69258748435350),
  (5629, 439847572369, 19662432088160), (5596, 94874135403, 180237199072180),
  (6197, 380364010966, 33928641933650), (4668, 316816375033, 14807872442630),
  (4891, 267234862638, 41703696332040), (4959, 163453587065, 16682867252200),
  (4408, 495179678525, 18409414790940), (4449, 569134789394, 25265597135320),
  (4943, 85358212806, 4647042291600), (5153, 382176885491, 84215068148810),
  (5930, 595484153666, 48640193591630), (4206, 297664198894, 38012776796000),
  (4467, 24914978400, 12895626931510), (5419, 619106890918, 33773251065900),
  (4499, 471434958315, 15104766984290), (4233, 418702525973, 68547393735270),
  (4695, 154881559549, 21478356814630), (4084, 487173226400, 1497785352700),
  (4321, 542615168860, 43689313161450), (5145, 49931857511, 24872381809010),
  (3897, 74661138504, 262711418447060), (3995, 307750371135, 71074673161820),
  (4089, 581996977038, 49181856188770), (4532, 367494714028, 18972322220190),
  (3690, 126565281569, 21181462272970), (4036, 115473702593, 305371237534660)]

/-- `vsop87d_dict.py` 24994-25093. -/
def saturnR1_3 : List (ℕ × ℕ × ℕ) := [
  (3672, 452661018437, 48884961647110), (3662, 287243745783, 41162033734900),
  (3653, 306205147988, 40992341631960), (3908, 345947158106, 22046082654860),
  (4989, 336376245705, 82474219374880), (3677, 355713278092, 24431858407500),
  (3580, 157825591891, 64382943957710), (3546, 219846245030, 13533610313300),
  (3560, 451362022045, 60176425067620), (3843, 98567531677, 27140591944890),
  (3559, 111005765159, 628307584999140), (4266, 619696005871, 26843697403230),
  (3442, 427628882392, 86742347575360), (4844, 373706907228, 23539049596580),
  (3659, 221859531609, 292076130680), (3958, 517084570945, 11439910691340),
  (3609, 554387488088, 45884151979040), (4470, 374256930900, 69970103135430),
  (3293, 448068043469, 28956516671360), (3240, 594728881707, 13154696222180),
  (3477, 354553285172, 96340270297140), (3838, 477967877681, 17516605980020),
  (3223, 195410765469, 21202707105080), (4053, 419011281964, 50137978944330),
  (3100, 211956558345, 91693228005540), (3183, 193201605379, 135443315884340),
  (3301, 180825506815, 75632338265690), (4187, 596622666047, 21254833591260),
  (3716, 370660462807, 20470107572890), (3000, 615443664698, 326701147078460),
  (2993, 420888489881, 53362311835770), (4125, 609715151219, 264134127847220),
  (3145, 255483540896, 90588657979150), (2982, 152760656472, 94599421523210),
  (3015, 176012152992, 2831117565130), (3453, 142473508236, 221474308759620),
  (2926, 550138147476, 2437902238820), (2978, 427440059910, 19589060769870),
  (3526, 363935401565, 22997386999440), (2860, 452551886503, 24161027108930),
  (3059, 568165832697, 28266406803390), (3415, 526311934884, 6766805156650),
  (2819, 542053027567, 30508553696180), (3503, 131670335802, 6915252427480),
  (2746, 82597971627, 44475743814070), (2796, 7021047160, 68154178408960),
  (3366, 403843228994, 615033915430), (3242, 263461047831, 73980866679490),
  (2718, 340899287465, 18892007304980), (2741, 322092213412, 77693031047640),
  (2793, 339766347322, 43126405732200), (2966, 391429372950, 52650957135690),
  (2693, 338996413068, 77841478318470), (2680, 382192393959, 306082592234740),
  (2954, 269669880207, 42664637498580), (2681, 104615621583, 2845418800320),
  (3182, 272333374876, 43222726516850), (2633, 255029306465, 1021328554621100),
  (2923, 85695094024, 243515573003500), (2596, 542890752137, 20714875628370),
  (3225, 96538615730, 211876386037840), (2774, 33260844270, 32668681039510),
  (2550, 588893697427, 43912836384820), (2716, 315505406487, 17076082578510),
  (2942, 488555233562, 39739324334740), (3121, 187815629157, 241381508903260),
  (3263, 259868619716, 21303846300710), (2518, 15471130491, 94524345570670),
  (3169, 570993651497, 38135160823740), (2515, 6248441393, 42756139872250),
  (3279, 495751323467, 31394418910180), (2595, 513169797457, 29912639426920),
  (2572, 342558391509, 419278569400), (2580, 203280916494, 31931263096340),
  (3294, 624566168486, 42118156490460), (2580, 262721090534, 21318722085340),
  (2879, 45679876898, 28563301345050), (2406, 457473098758, 22827694896500),
  (2518, 255500085830, 14000196957900), (2422, 236310658303, 8434282612290),
  (2374, 225544718932, 1726547538740), (2627, 126370339212, 72483081326790),
  (2346, 377641630157, 20623373254700), (2463, 542094278240, 39557870223900),
  (2352, 63041319237, 21059078245230), (3166, 26273580642, 20151968199120),
  (2405, 78919759458, 42607692601420), (2390, 589523812458, 73879727483860),
  (2515, 70044371265, 294350605412720), (2332, 406963624306, 51939602435610),
  (3132, 279331632190, 73269511979410), (2658, 334020209714, 114113406340540),
  (2258, 12403309730, 252402141025200), (2697, 258404587754, 42563498302950),
  (2416, 385003724506, 69651963761660), (2597, 254164936697, 43615941843160),
  (2192, 307202313269, 20326478713040), (2424, 260715310452, 51153171782990),
  (2126, 14811901148, 40599126305650), (2306, 125068142377, 42711945573780)]

/-- `vsop87d_dict.py` 25094-25193. -/
def saturnR1_4 : List (ℕ × ℕ × ℕ) := [
  (2121, 43505808954, 18498791978670), (2755, 302380019321, 46824268865160),
  (2333, 302634928771, 21600740842370), (2182, 427912012069, 716173111060),
  (2101, 431781498012, 57222923474750), (2362, 482914341110, 55651766803760),
  (2218, 82936075453, 337010424500320), (2103, 525950154713, 66123792731640),
  (2580, 103705340380, 21341097002260), (2366, 614368355608, 20543478891180),
  (2042, 21462094901, 325989792378380), (2547, 469969204009, 22137585028530),
  (1987, 322670561632, 138288734684660), (2213, 89932827487, 28659622129700),
  (2191, 8759174058, 25976951835400), (1968, 57824086026, 18016199464630),
  (2037, 235713099759, 61069233878540), (1959, 218553775379, 7207328558160),
  (2061, 168041202479, 167082502850000), (1940, 62951066481, 40695447090300),
  (2043, 439130144045, 57616138801060), (1936, 105286934530, 126238608488870),
  (1975, 31945835160, 93812990870590), (2015, 166410213484, 19365537546500),
  (1971, 72639439054, 20055647414470), (1952, 625320630177, 24175328344120),
  (1976, 131263772699, 13554855145410), (2448, 52850194172, 42951895218280),
  (1977, 313944703383, 42193232443000), (1853, 17184530353, 19603362005060),
  (2552, 539764879348, 285464037391020), (1830, 147821899466, 63841281360570),
  (2245, 600427164270, 23070758317730), (1822, 608626100417, 126163532536330),
  (2168, 41741136149, 21351154375910), (1869, 367791368036, 40302231763990),
  (1866, 159662677545, 39117346822390), (2034, 121814866092, 304659882834580),
  (1929, 493193335031, 42096911658350), (1746, 509757251683, 10775864066460),
  (2168, 324685294764, 21308664711690), (2178, 509777299346, 55800214074590),
  (1992, 229524873043, 177391780271860), (1761, 288655624670, 14169889060840),
  (1769, 547051542758, 20613736432740), (1734, 211941015901, 43079097657000),
  (2377, 107633521570, 5980374504030), (1797, 290984583978, 9279783348010),
  (1725, 522827286197, 75721715453420), (2305, 588235807192, 42655000676620),
  (1751, 528990803470, 8731177153950), (2202, 128096946505, 62491943278700),
  (2043, 46193065602, 83110498122420), (1931, 126974971942, 21989137757700),
  (1953, 296900002385, 39814400287280), (1676, 481683149512, 18180652604900),
  (1902, 274426125465, 495206359328620), (2133, 537177705284, 62736711334180),
  (1962, 352111949662, 21345915413240), (1709, 614073761844, 95235700270750),
  (1784, 105243716682, 35330106501700), (1700, 117418864170, 73905790726950),
  (1609, 135009554392, 8493352695390), (2038, 247570829812, 2682670294300),
  (1870, 561729116529, 295773314812880), (1962, 13564680851, 21313903674360),
  (2041, 331354526279, 159618644228460), (1612, 619495100885, 43201481684740),
  (1742, 287947098602, 17935884549420), (1964, 284253666387, 42904587143080),
  (1805, 60932632638, 53261172640140), (1647, 82347900016, 21457111982520),
  (1893, 433962647901, 17394221952280), (1689, 113037158144, 58631331639720),
  (1523, 271561930244, 7329712585900), (1524, 526558677448, 542987946823940),
  (1582, 279533721474, 84290144101350), (1608, 233230359324, 41852143602870),
  (1579, 115182102801, 73194436026870), (1689, 191915438546, 63033605875840),
  (1990, 523790221176, 55013783421970), (1772, 295372411478, 17224529849340),
  (1596, 99004701777, 95310776223290), (1784, 391391032360, 15912442469020),
  (1592, 299690086808, 4557665103870), (1968, 23073879009, 22036445832900),
  (1549, 588699595922, 6055450456570), (1459, 551999778036, 27385360000370),
  (1909, 278415262815, 41800017116690), (1445, 325530914937, 45342489381900),
  (1454, 16250693313, 11562294719080), (1566, 224077018103, 105620053645150),
  (1412, 345442909885, 35499798604640), (1564, 338591337689, 40918970313670),
  (1631, 106286709889, 21355972786890), (1415, 132091877590, 37390799283650),
  (1389, 40584159469, 936008916445900), (1663, 233357114562, 18802630117250),
  (1426, 544677783737, 86424208201590), (1716, 396056093028, 169927921650320)]

/-- `vsop87d_dict.py` 25194-25293. -/
def saturnR1_5 : List (ℕ × ℕ × ℕ) := [
  (1682, 39747670320, 1740848773930), (1368, 583289186692, 56904784100980),
  (1416, 365464640816, 685291456990), (1469, 349069193830, 93494851496820),
  (1330, 441794310534, 391402230409940), (1309, 129979865382, 42808266358430),
  (1300, 157748627871, 23857188970350), (1389, 131202796503, 627596230299060),
  (1384, 67585082323, 275154759969160), (1471, 121149871903, 253113495725280),
  (1334, 411154515525, 20693630796260), (1601, 93356520728, 35574874557180),
  (1259, 256678207309, 85001498801430), (1277, 41764451386, 10064509366380),
  (1436, 406045514506, 17787437278590), (1308, 101324076289, 42367742956920),
  (1541, 603020449918, 29201284726840), (1307, 583815678434, 586359120611620),
  (1613, 245074803642, 104908698945070), (1249, 301518429832, 46473122651380),
  (1250, 623516728885, 82399143422340), (1275, 268217384213, 63744960575920),
  (1249, 297028182853, 5174920809227239), (1240, 266940683813, 270071514038580),
  (1456, 185558224828, 9687299909510), (1491, 498649587341, 29519424100610),
  (1230, 427283851216, 1213955350910680), (1292, 273196017809, 1020617199921020),
  (1247, 377399749791, 50456118318100), (1408, 102955773079, 51838463239980),
  (1223, 112202093840, 22116340196420), (1420, 439795293289, 60676018552230),
  (1190, 157292553631, 82005928096030), (1247, 99102599652, 979380090233580),
  (1234, 110826361423, 230360876781320), (1186, 455984967028, 980853818466140),
  (1346, 494456950019, 38405992122310), (1514, 360392291730, 201567108615980),
  (1432, 228704432909, 52549817940060), (1129, 87100340620, 16209337010680),
  (1196, 513485214850, 22731374111850), (1339, 248923887712, 20670681329900),
  (1421, 165379789078, 85712853501510), (1162, 192099315083, 22093390730060),
  (1277, 485435999187, 5417467074780), (1153, 533028034679, 23390602325750),
  (1214, 411324721963, 337721779200400), (1109, 568915582674, 16289651925890),
  (1068, 485383480876, 61144309831080), (1119, 140805686363, 198721689815660),
  (1085, 64208148190, 73168372783780), (1435, 320880139888, 83578789401270),
  (1184, 299776919968, 19928444975750), (1281, 312245339510, 42734895040140),
  (1058, 517851282929, 30609692891810), (1152, 439244449554, 19996577331370),
  (1036, 368027119804, 59735901666110), (1055, 325561743426, 39435486196160),
  (1127, 433255371960, 55258551477450), (1213, 621447612110, 4253826965290),
  (1117, 374367882111, 21419286731530), (1023, 384199833949, 89484087952760),
  (1042, 530120078590, 45097721326420), (1290, 396221234564, 31883955021140),
  (1073, 410012122884, 18816931352440), (1204, 37702365750, 39346109008430),
  (1214, 201826978554, 40132539661050), (1018, 2946649279, 284041327990860),
  (1237, 541088851225, 42584743135060), (1187, 516511890602, 83821852822500),
  (1276, 293572146232, 145752593306200), (994, 340079885702, 21160217440860),
  (1042, 242209320898, 36137781986430), (1093, 366289018246, 22663241756230),
  (978, 376334208607, 585647765911540), (1263, 209195268609, 7871375183040),
  (1009, 585963705048, 126874887236410), (1148, 439543895068, 57074476203920),
  (1051, 327272240682, 15349535039770), (975, 342924642244, 10554045477340),
  (997, 430943991893, 21240532356070), (954, 388548755058, 17165459766240),
  (960, 190180005280, 115929331067010), (953, 340787141587, 24479166482700),
  (969, 193369993197, 52575881183150), (918, 173738789723, 22333340374560),
  (1164, 505392864346, 26370167161710), (951, 423581224839, 9294084583200),
  (1160, 580630916592, 46053844081980), (1186, 446262000755, 46595506679120),
  (931, 209868057209, 20566428357540), (942, 386810837922, 23842887735160),
  (1020, 553181822898, 4818410980), (995, 203457885490, 629018939699220),
  (888, 260957592990, 191257831194120), (873, 578433393020, 48077286162380),
  (854, 163255087291, 32824071907260), (1123, 407401922216, 369360966166060),
  (934, 352355235083, 1022039909321180), (833, 303302227840, 53287235883230)]

/-- `vsop87d_dict.py` 25294-25332. -/
def saturnR1_6 : List (ℕ × ℕ × ℕ) := [
  (1007, 273615455688, 484185727206680), (870, 106968760644, 5120572533120),
  (891, 136817544763, 70045179087970), (833, 539754715806, 15971512552120),
  (854, 191765015557, 62248879857470), (976, 309106001923, 233206295581640),
  (819, 555683690482, 46202291352810), (800, 147042677460, 96962247809490),
  (933, 140166917666, 28793768165340), (784, 169235162770, 47780391620720),
  (782, 398153416585, 70214871190910), (810, 587689161549, 56193429400900),
  (858, 402964773169, 4164449777560), (819, 98885784755, 96022130923370),
  (882, 149559638306, 76025553592000), (767, 246787654531, 40221916848780),
  (851, 364678001195, 34863519857100), (852, 103470840672, 262000063746980),
  (770, 467090683753, 1667477455640), (849, 527994730935, 7463858621540),
  (854, 256811257488, 43274853003030), (767, 111806243753, 284752682690940),
  (729, 44171990710, 89877303279070), (776, 554603607568, 317103224356680),
  (721, 605392551158, 9178644152380), (739, 357172839746, 77523338944700),
  (730, 498865345688, 70511765732570), (705, 44942445750, 21966188291340),
  (708, 69014726046, 104833622992530), (706, 222974712805, 2920494752860),
  (711, 981284716, 211558246664070), (722, 414075205197, 22507850888480),
  (735, 154083195463, 20199276274320), (746, 408997409526, 84926422848890),
  (729, 281779134868, 41953282798500), (837, 100844734156, 412732139953740),
  (939, 46037763932, 548886810538160), (939, 185473712038, 506226991450560),
  (721, 162872794201, 220051599359460)]

/-- `vsop87d_dict.py` 24693-25333. -/
def saturnR1 : List (ℕ × ℕ × ℕ) := List.flatten [
  saturnR1_0, saturnR1_1, saturnR1_2, saturnR1_3, saturnR1_4, saturnR1_5, saturnR1_6]

/-- `vsop87d_dict.py` 25335-25434. -/
def saturnR2_0 : List (ℕ × ℕ × ℕ) := [
  (436902464, 478671673044, 21329909543800), (71922760, 250069994874, 20618554843720),
  (49766792, 497168150870, 22041264243880), (43220894, 386940443794, 42659819087600),
  (29645554, 596310264282, 711354700080), (4141650, 410670940823, 43371173787680),
  (4720909, 247527992423, 19907200143640), (3789370, 309771025067, 63989728631400),
  (2963990, 137206248846, 10309277421860), (2556363, 285065721526, 41948464387520),
  (2208457, 627588858707, 11020632121940), (2187621, 585545832218, 1422709400160),
  (1956896, 492448618045, 22752618943960), (2326801, 0, 0),
  (923840, 546392422737, 32350541665740), (705936, 297081280098, 9597922721780),
  (546115, 412854181522, 41237109687440), (373838, 583435991809, 11731986822020),
  (360882, 327703082368, 64701083331480), (356350, 319152043942, 21011770170030),
  (390627, 448106176893, 21648048917570), (431485, 517825414612, 52257741809380),
  (325598, 226867601656, 85319638175200), (405018, 417294157872, 20936694217490),
  (204494, 8774848590, 20225339517410), (206854, 402188336738, 73587651353180),
  (178474, 409716541453, 44082528487760), (180143, 359704903955, 63278373931320),
  (153656, 313470530382, 62567019231240), (147779, 13614300541, 30216477565500),
  (123189, 418895309647, 8886568021700), (133076, 259350469420, 19195845443560),
  (100367, 546056190585, 318139373770), (131975, 593293968941, 30927832265580),
  (97235, 401832604356, 72876296653100), (110709, 477853798276, 83896928775040),
  (119053, 555385105975, 22434479570190), (93852, 438395529912, 21723124870110),
  (108701, 529310899841, 51546387109300), (78609, 572525447528, 2134064100240),
  (81468, 510897365253, 95628915597060), (96412, 625859229567, 74299006053260),
  (69228, 404901237761, 393215326310), (65168, 377713343518, 105226838318840),
  (64088, 581235002453, 52969096509460), (62541, 218445116349, 19513984817330),
  (56987, 314666549033, 20300415469950), (55979, 484108422860, 23463973644040),
  (52940, 507780548444, 33061896365820), (50635, 277318570728, 94206206196900),
  (41649, 479014211005, 6373589830340), (44858, 56460613593, 26992144674060),
  (41357, 373496404402, 31639186965660), (52847, 392623831484, 94917560896980),
  (38398, 373966157784, 104515483618760), (37583, 418924633757, 53680451209540),
  (35285, 290795856092, 28414854074220), (33576, 380465978802, 14956319713460),
  (41073, 457870454147, 115536115740700), (30412, 248140171991, 86030992875280),
  (31373, 484075951849, 127268102562720), (30218, 435186294470, 40525754987360),
  (39430, 350858482049, 42266603761290), (29658, 158886982096, 106649547719000),
  (35202, 594478241578, 105938193018920), (25829, 354946335477, 136866025284500),
  (26283, 481567477177, 12443341522100), (29963, 366312205813, 42977958461370),
  (33011, 496879544579, 83185574074960), (24305, 531133255082, 1029494073850),
  (26332, 445253273390, 22359403617650), (22108, 276092021113, 41555249061210),
  (27187, 166347897738, 27703499374140), (21639, 103836302307, 1104570026390),
  (19713, 252194629263, 125845393162560), (17062, 327669927228, 65412438031560),
  (17261, 349414816663, 136154670584420), (16097, 173396878598, 49033408917940),
  (21099, 362102032955, 126556747862640), (17692, 431141612385, 147175302706360),
  (13458, 32327889681, 29505122865420), (12586, 313794576887, 7478159856730),
  (12023, 232917797741, 21085141488320), (15120, 359558424278, 26598929347750),
  (12959, 462359706368, 158907289528380), (15424, 501335704925, 12747179660680),
  (11193, 454981248285, 8175213321620), (13449, 488710089777, 43764389113990),
  (10673, 505234757424, 19120769491020), (13963, 304990968366, 42341679713830),
  (10614, 502845923229, 13703302416240), (14382, 468720080027, 114824761040620),
  (13470, 190280407135, 40843894361130), (10077, 520426583827, 34077089204480),
  (10323, 334460279759, 168505212250160), (9563, 317317920222, 35181659230870),
  (11295, 547808960704, 137577379984580), (8617, 281294528041, 9991138048090),
  (8460, 322691940753, 167793857550080), (7914, 235624291874, 157484580128220)]

/-- `vsop87d_dict.py` 25435-25534. -/
def saturnR2_1 : List (ℕ × ℕ × ℕ) := [
  (7587, 608171425316, 23145834270270), (9175, 340072244924, 158195934828300),
  (7337, 200393601815, 13140394986990), (8240, 404095881407, 178814489672020),
  (7579, 368311134272, 84608283475120), (6691, 437253800717, 14563104387150),
  (7539, 329482043104, 75010360753340), (6367, 400239137708, 44793883187840),
  (6249, 455603671940, 10627416795630), (6489, 133782087599, 21574677599280),
  (6501, 378204726337, 31321047591890), (5978, 55276980086, 1815924726470),
  (6171, 284712795642, 13851749687070), (6837, 483481646949, 31957326339430),
  (6678, 543046031699, 50835032409220), (7175, 437855723752, 146463948006280),
  (5753, 414268749228, 54391805909620), (5727, 435383078313, 190546476494040),
  (5101, 263866058897, 28808069400530), (5311, 362520849510, 607689030155420),
  (5498, 419972735173, 72164941953020), (5089, 504845206653, 1000709999777380),
  (5505, 113479635941, 5662235130260), (4820, 330043078578, 7626607127560),
  (4915, 617790518458, 48322054217860), (5048, 244627820757, 62885158605010),
  (4534, 119648682598, 20076892246580), (4817, 311549733365, 200144399215820),
  (4712, 126507812515, 606266320755260), (4811, 578388270496, 18484490743480),
  (4775, 76197795755, 33365734504400), (4514, 95293919611, 34321857259960),
  (4525, 268827745072, 999287290377220), (4378, 80241129896, 22286032299360),
  (4873, 592092913946, 61855664531160), (4142, 191878383159, 49744763618020),
  (5112, 450449287745, 41630325013750), (4125, 198204847532, 34788443904560),
  (4045, 287666810085, 3813303563780), (4133, 290478811425, 10702492748170),
  (4035, 292972681787, 199433044515740), (4916, 312316267561, 189835121793960),
  (3657, 324680246734, 36286229257260), (3753, 87719890943, 70363318461740),
  (3576, 348080143501, 38846515523820), (3555, 408436297683, 43053034413910),
  (3598, 5255328597, 3224332891440), (3561, 546414552453, 628307584999140),
  (3480, 181622589595, 7084944530420), (3827, 312041228490, 63596513305090),
  (3399, 54882815021, 1021328554621100), (3399, 351833356080, 62960234557550),
  (3364, 327821747958, 35744566660120), (3260, 197623748027, 20373786788240),
  (3118, 218465627368, 189123767093880), (3163, 126040995242, 13458534360760),
  (4004, 545434102599, 169216566950240), (3180, 246319174788, 86742347575360),
  (3389, 420503159673, 33773251065900), (3026, 219331614526, 21796496188400),
  (3573, 555097240810, 11338771495710), (3682, 378966280284, 210453676637680),
  (3125, 409203641264, 147886657406440), (2881, 390810650240, 31219908396260),
  (3199, 392123638342, 103804128918680), (4014, 517826893553, 40450679034820),
  (3907, 411767191780, 178103134971940), (3144, 161185684069, 107360902419080),
  (3072, 500675625396, 31245971639350), (3034, 546288652854, 25887574647670),
  (2884, 238477237305, 18105576652360), (2986, 88783591586, 127979457262800),
  (2683, 956197492, 19589060769870), (3081, 560034737330, 21621985674480),
  (2626, 612701960244, 27310284047830), (2665, 231576422128, 56511568774670),
  (3245, 387540558646, 8582729883120), (2740, 573784096806, 16060889739850),
  (2876, 474720607366, 21325091132820), (2523, 530458920892, 44475743814070),
  (2752, 508984539930, 116958825140860), (2889, 166674437398, 21334727954780),
  (2923, 421481009033, 65094298657790), (3036, 255426675350, 606977675455340),
  (3116, 267220972004, 5269019803950), (2371, 89591351822, 12125202148330),
  (2993, 396957827454, 999998645077300), (3088, 40656113014, 56118353448360),
  (2385, 474063881551, 21871572140940), (2632, 112706218927, 34470304530790),
  (2316, 408445262041, 13154696222180), (2214, 337726228553, 2209140052780),
  (2129, 332497715011, 35893013930950), (2679, 168971401870, 20863322899200),
  (2607, 510250482155, 82474219374880), (2250, 260474848767, 30534616939270),
  (2087, 337293958793, 32032402291970), (2693, 362159456470, 43689313161450),
  (2492, 296129217279, 221474308759620), (2704, 288483697319, 64307868005170)]

/-- `vsop87d_dict.py` 25535-25634. -/
def saturnR2_2 : List (ℕ × ℕ × ℕ) := [
  (2124, 161210282593, 21892816973050), (2037, 463481160778, 18802630117250),
  (2394, 346386258552, 627596230299060), (1973, 228886138203, 262711418447060),
  (1937, 567082364247, 2845418800320), (1920, 425647211328, 54695644048200),
  (2498, 357572154405, 242092863603340), (1898, 130987536388, 21233588759150),
  (1852, 158508015515, 42415051032120), (1850, 357830449726, 32972519178090),
  (2128, 395329215734, 179525844372100), (2236, 422073549375, 222185663459700),
  (1933, 168771499202, 35033211960040), (1799, 206541260431, 14414657116320),
  (1904, 460953896857, 18227960680100), (2236, 517945392885, 9916062095550),
  (1755, 273425330428, 29126208774300), (2231, 542548168745, 20788246946660),
  (1848, 224194286719, 16805251279940), (1726, 131878655393, 21944943459230),
  (1709, 555913931846, 9279783348010), (1693, 195360003617, 12991947716160),
  (2064, 484900344498, 114113406340540), (1758, 505088656436, 21426230328450),
  (1781, 285880153340, 63671589257630), (1900, 290295578617, 231072231481400),
  (1759, 534657858395, 4557665103870), (1654, 614450664508, 55406998748280),
  (1578, 450941374663, 21037833413120), (1681, 355136706992, 135443315884340),
  (1862, 301276783582, 231783586181480), (1589, 115773448350, 23539049596580),
  (1551, 215558953807, 20767002114550), (1874, 412861627986, 22582926841020),
  (1621, 329992957653, 167082502850000), (1911, 17724319140, 1253017297220),
  (1477, 590270260570, 148447270830), (1618, 572513459206, 148598012106520),
  (1446, 178104589920, 138288734684660), (1683, 343534671475, 242804218303420),
  (1542, 551223038941, 20470107572890), (1420, 207339356364, 19832124191100),
  (1444, 556032454849, 12836556848410), (1476, 612782257368, 21277783057620),
  (1474, 33626790634, 21382036029980), (1428, 325039966249, 94599421523210),
  (1410, 68747644676, 42904587143080), (1752, 270090942746, 1274262129330),
  (1681, 497526853273, 200855753915900), (1408, 80461100746, 158514074202070),
  (1485, 49674043855, 12035824960600), (1490, 268459799437, 20714875628370),
  (1411, 436399216092, 586359120611620), (1315, 473430848989, 24175328344120),
  (1516, 499488503706, 116247470440780), (1310, 198714265058, 56363121503840),
  (1286, 212891372062, 25143213107580), (1271, 570165238307, 292076130680),
  (1312, 168811514551, 220762954059540), (1259, 35924965717, 33455111692130),
  (1252, 214513440216, 105544977692610), (1401, 613250261735, 180237199072180),
  (1343, 579995727295, 979380090233580), (1228, 329059284057, 66123792731640),
  (1202, 288792018909, 241381508903260), (1286, 572360160371, 29823262239190),
  (1357, 93175963411, 21749188113200), (1356, 228121627817, 60176425067620),
  (1190, 194993809928, 50137978944330), (1304, 37337923280, 347319701922180),
  (1350, 287235622320, 14244965013380), (1349, 321102203937, 17516605980020),
  (1312, 370149813509, 211165031337760), (1129, 108860603834, 84215068148810),
  (1237, 8698781252, 52650957135690), (1217, 389835349840, 20910630974400),
  (1467, 116228775027, 62173803904930), (1044, 30512759901, 43615941843160),
  (1140, 533720637097, 11413847448250), (1295, 470261675421, 978668735533500),
  (1037, 407846687083, 15667674413540), (1391, 473554028436, 39814400287280),
  (1167, 568899703631, 47928838891550), (1035, 534279429465, 32743756992050),
  (997, 119323192891, 71074673161820), (1193, 517722376816, 9889998852460),
  (1165, 458588490135, 73269511979410), (1161, 490854984994, 1020617199921020),
  (1144, 50394784140, 390690875709860), (1182, 369482624364, 285464037391020),
  (970, 289031410383, 198721689815660), (1039, 48694895443, 52549817940060),
  (1079, 361750956217, 209742321937600), (1148, 331015591733, 585647765911540),
  (1241, 431971543677, 23070758317730), (910, 459825926062, 38012776796000),
  (907, 134912454077, 68547393735270), (1166, 161085609717, 584936411211460),
  (882, 612045540405, 51939602435610), (963, 496065454054, 69970103135430)]

/-- `vsop87d_dict.py` 25635-25676. -/
def saturnR2_3 : List (ℕ × ℕ × ℕ) := [
  (1062, 513323858077, 275154759969160), (865, 612821112133, 24554242435240),
  (1100, 218435744407, 169927921650320), (822, 555083534581, 73905790726950),
  (926, 201158276144, 41703696332040), (813, 518401872205, 21478356814630),
  (1033, 548677848094, 399577443731560), (872, 302363724703, 30609692891810),
  (796, 44343664540, 48640193591630), (878, 182164034386, 13533610313300),
  (791, 214989417962, 262000063746980), (881, 239697554334, 28956516671360),
  (782, 450471317138, 98066817835880), (783, 114229319753, 54073666535850),
  (831, 69937251013, 42193232443000), (770, 240292326155, 57616138801060),
  (950, 597621460162, 19662432088160), (814, 419303098086, 83110498122420),
  (969, 478071024754, 32668681039510), (760, 44860533530, 42563498302950),
  (907, 94781730418, 52575881183150), (788, 14287187051, 91693228005540),
  (801, 186383119100, 303948528134500), (801, 46947170994, 346608347222100),
  (747, 605374861925, 21181462272970), (968, 302618272726, 263422773147140),
  (739, 227110740297, 230360876781320), (750, 548554383902, 17394221952280),
  (1024, 191564925560, 22997386999440), (816, 498990432666, 420907353275360),
  (728, 130997967935, 51153171782990), (716, 374192651696, 305371237534660),
  (727, 39191881243, 149309366806600), (717, 268899513085, 22827694896500),
  (739, 212749199443, 117670179840940), (805, 7187193910, 55651766803760),
  (835, 348287855700, 8493352695390), (790, 48073040004, 401711507831800),
  (725, 196643065215, 22046082654860), (683, 268825142163, 15104766984290),
  (739, 333688408107, 95310776223290), (745, 622304530635, 126949963188950)]

/-- `vsop87d_dict.py` 25334-25677. -/
def saturnR2 : List (ℕ × ℕ × ℕ) := List.flatten [
  saturnR2_0, saturnR2_1, saturnR2_2, saturnR2_3]

/-- `vsop87d_dict.py` 25679-25778. -/
def saturnR3_0 : List (ℕ × ℕ × ℕ) := [
  (20315005, 302186626038, 21329909543800), (8923581, 319144205755, 22041264243880),
  (6908677, 435174889353, 20618554843720), (4087129, 422406927376, 711354700080),
  (3879041, 201056445995, 42659819087600), (1070788, 420360341236, 19907200143640),
  (907332, 228344368029, 43371173787680), (606121, 317458570534, 22752618943960),
  (596639, 413455753351, 1422709400160), (483181, 117345973258, 63989728631400),
  (393174, 0, 0), (229472, 469838526383, 41948464387520),
  (188250, 459003889007, 11020632121940), (149508, 320199444400, 10309277421860),
  (121442, 376831374104, 32350541665740), (101215, 581884137755, 41237109687440),
  (102146, 470974422803, 9597922721780), (93078, 143531270909, 64701083331480),
  (72601, 415395598507, 11731986822020), (84347, 263462379693, 21648048917570),
  (62198, 231239345505, 44082528487760), (45145, 437317047297, 19195845443560),
  (49536, 238854232908, 20936694217490), (54829, 30526468471, 85319638175200),
  (40498, 183836569765, 30216477565500), (38089, 594455115525, 8886568021700),
  (32243, 401146349387, 2134064100240), (40671, 68845183210, 52257741809380),
  (28209, 577193013961, 21011770170030), (24976, 306249709014, 23463973644040),
  (20824, 492570695678, 62567019231240), (25070, 73137425284, 51546387109300),
  (17485, 573135068691, 72876296653100), (18009, 145593152612, 30927832265580),
  (16927, 352771580455, 318139373770), (13437, 336479898106, 33061896365820),
  (11090, 337212682914, 22434479570190), (11082, 341719974793, 95628915597060),
  (9978, 158791582772, 20225339517410), (11551, 599093726182, 73587651353180),
  (10500, 606911092266, 40525754987360), (9144, 293557421591, 12443341522100),
  (8737, 465432480769, 63278373931320), (10023, 58247011625, 86030992875280),
  (7482, 450669216436, 94206206196900), (10091, 28268774007, 83896928775040),
  (9243, 257034547708, 22359403617650), (8652, 175808100881, 42977958461370),
  (7564, 145635107202, 65412438031560), (7058, 547394786065, 104515483618760),
  (6970, 151811695028, 42266603761290), (8067, 448457709292, 74299006053260),
  (6817, 483084424818, 31639186965660), (7693, 43769724671, 83185574074960),
  (7934, 420112367712, 19513984817330), (6119, 233960392135, 26992144674060),
  (5589, 114518720694, 28414854074220), (5564, 418123189068, 52969096509460),
  (5034, 212020038657, 29505122865420), (6556, 342459866876, 1029494073850),
  (5544, 246823271699, 53680451209540), (6189, 601433827520, 106649547719000),
  (5649, 82784598388, 21723124870110), (4264, 323245736673, 127268102562720),
  (4450, 92477808590, 20300415469950), (3268, 432777516976, 125845393162560),
  (3655, 5832123987, 8175213321620), (3951, 11124996745, 115536115740700),
  (3773, 601157059552, 105226838318840), (2915, 564342950039, 393215326310),
  (3019, 219411778004, 44793883187840), (2977, 189387342550, 14956319713460),
  (3146, 19215180096, 114824761040620), (2763, 92363342001, 50835032409220),
  (2790, 497199778427, 167793857550080), (2608, 299591016813, 158907289528380),
  (2881, 540535671721, 136154670584420), (2337, 130362271569, 18484490743480),
  (2536, 371412120849, 40843894361130), (2450, 322118361135, 31957326339430),
  (2585, 231346415454, 54391805909620), (2324, 587500715503, 72164941953020),
  (1990, 51565577383, 41630325013750), (2490, 424017800021, 105938193018920),
  (1935, 241463084855, 33773251065900), (1886, 53809070779, 63596513305090),
  (1893, 562352727352, 1104570026390), (2389, 573399981234, 31321047591890),
  (1900, 241000566465, 13154696222180), (1743, 457646237847, 199433044515740),
  (1913, 517436386408, 285464037391020), (1946, 623355845623, 147175302706360),
  (1963, 617814558628, 146463948006280), (1838, 559464577559, 103804128918680),
  (1541, 60765337379, 21085141488320), (1617, 175479346067, 19589060769870),
  (1577, 55789908488, 232494940881560), (1492, 26624235633, 49744763618020),
  (1659, 257526072926, 209030967237520), (1809, 182317819973, 43689313161450)]

/-- `vsop87d_dict.py` 25779-25835. -/
def saturnR3_1 : List (ℕ × ℕ × ℕ) := [
  (1566, 615328100324, 49033408917940), (1771, 611741716855, 107360902419080),
  (1456, 85374460914, 41555249061210), (1645, 295335775161, 43764389113990),
  (1391, 412025028560, 157484580128220), (1585, 596841377266, 178103134971940),
  (1507, 384895122542, 125134038462480), (1442, 532547705924, 253824850425360),
  (1805, 150973093681, 75010360753340), (1462, 328599831588, 188412412393800),
  (1482, 99340744053, 64307868005170), (1312, 379347668996, 156773225428140),
  (1665, 2551523913, 42341679713830), (1469, 535285153471, 135443315884340),
  (1352, 69945139243, 86742347575360), (1124, 179624810407, 61855664531160),
  (1126, 470052329245, 11338771495710), (1122, 395537224270, 189123767093880),
  (1458, 150198846753, 43053034413910), (1145, 513093399117, 2527279426550),
  (1178, 297062300389, 24175328344120), (1274, 229089799814, 242092863603340),
  (1071, 4888943982, 6373589830340), (1377, 558271514873, 138288734684660),
  (1145, 310797488346, 220051599359460), (1076, 79465514815, 12747179660680),
  (1046, 585060227045, 21574677599280), (1082, 372589445510, 13140394986990),
  (1218, 47504349592, 82474219374880), (1116, 378039049056, 137577379984580),
  (969, 590752273481, 26598929347750), (1230, 141325962069, 263422773147140),
  (1070, 480334493874, 198721689815660), (946, 625968535931, 201567108615980),
  (1030, 108973644893, 36286229257260), (1072, 541838042079, 127979457262800),
  (880, 192224908504, 48322054217860), (878, 296591300878, 93494851496820),
  (879, 265659265685, 14563104387150), (872, 626261969664, 244768055480),
  (1082, 448298283322, 221474308759620), (959, 74479087918, 1667477455640),
  (1035, 405664979327, 23145834270270), (851, 9360495322, 62885158605010),
  (888, 598816755324, 252402141025200), (866, 316259265630, 220762954059540),
  (843, 123731248821, 7478159856730), (809, 289742868175, 200855753915900),
  (779, 228434811609, 147886657406440), (990, 532604038017, 242804218303420),
  (795, 238178135810, 222897018159780), (765, 470033674940, 167082502850000),
  (1024, 423352869513, 180237199072180), (831, 587457134912, 136866025284500),
  (717, 592144324994, 168505212250160), (772, 115596098579, 305371237534660),
  (691, 313193109668, 5662235130260)]

/-- `vsop87d_dict.py` 25678-25836. -/
def saturnR3 : List (ℕ × ℕ × ℕ) := List.flatten [
  saturnR3_0, saturnR3_1]

/-- `vsop87d_dict.py` 25838-25901. -/
def saturnR4_0 : List (ℕ × ℕ × ℕ) := [
  (1202050, 141499446465, 22041264243880), (707796, 116153570102, 21329909543800),
  (516121, 623973568330, 20618554843720), (426664, 246924890293, 711354700080),
  (267736, 18659206741, 42659819087600), (170171, 595926972384, 19907200143640),
  (145113, 144211060143, 22752618943960), (150339, 47970167140, 43371173787680),
  (121033, 240527320817, 1422709400160), (47332, 556857488676, 63989728631400),
  (15745, 290112466278, 11020632121940), (16668, 52920774279, 44082528487760),
  (18954, 585626429118, 64701083331480), (14074, 130343550656, 41237109687440),
  (12708, 209349305926, 32350541665740), (14724, 29905316786, 41948464387520),
  (11133, 246304825990, 11731986822020), (11320, 21785507019, 9597922721780),
  (9233, 228127318068, 2134064100240), (9246, 156496312830, 8886568021700),
  (8970, 68301278041, 21648048917570), (7674, 359367715368, 30216477565500),
  (7823, 448688804175, 85319638175200), (8360, 127239488455, 23463973644040),
  (9552, 314159265359, 0), (4834, 258836294602, 51546387109300),
  (6059, 516774448740, 10309277421860), (4410, 2211643085, 19195845443560),
  (4364, 159622746023, 33061896365820), (3676, 329899839673, 21011770170030),
  (4364, 597349927933, 65412438031560), (4447, 497415112184, 86030992875280),
  (3220, 272684237392, 52257741809380), (4005, 159858435636, 40525754987360),
  (3099, 75235436533, 20936694217490), (2464, 119167306488, 12443341522100),
  (3088, 132258934286, 72876296653100), (2220, 328087994088, 20300415469950),
  (2127, 614648095022, 42977958461370), (2110, 75462855247, 29505122865420),
  (2020, 389394929749, 106649547719000), (2248, 49319150178, 44793883187840),
  (2180, 72761059998, 62567019231240), (1809, 9057839517, 94206206196900),
  (1672, 139635398184, 22434479570190), (1641, 302468307550, 18484490743480),
  (1772, 81879250825, 22359403617650), (1902, 200472814984, 83185574074960),
  (1600, 541185167676, 82474219374880), (1505, 595520747253, 42266603761290),
  (1133, 111512973946, 83896928775040), (1190, 189600567803, 95628915597060),
  (1487, 211906469507, 52969096509460), (1409, 72254420236, 53680451209540),
  (1125, 89062692183, 72164941953020), (1301, 164867038984, 1740848773930),
  (1164, 596957981840, 19513984817330), (950, 536080713290, 31639186965660),
  (985, 305768671768, 157484580128220), (1050, 159202481523, 73587651353180),
  (817, 492838813598, 5662235130260), (780, 272125404102, 50835032409220),
  (969, 100708261792, 104515483618760), (716, 111042181341, 116958825140860)]

/-- `vsop87d_dict.py` 25837-25902. -/
def saturnR4 : List (ℕ × ℕ × ℕ) := saturnR4_0

/-- `vsop87d_dict.py` 25904-25931. -/
def saturnR5_0 : List (ℕ × ℕ × ℕ) := [
  (128612, 591282565136, 22041264243880), (32273, 69256228602, 711354700080),
  (26698, 591428528629, 22752618943960), (19923, 67370653385, 1422709400160),
  (20223, 495136801768, 43371173787680), (13537, 145669521408, 19907200143640),
  (14097, 267074280191, 20618554843720), (13364, 458826996370, 42659819087600),
  (7257, 462966127155, 21329909543800), (4876, 361448275002, 63989728631400),
  (3136, 465661021909, 19195845443560), (2917, 48665273315, 32350541665740),
  (3759, 489624165044, 44082528487760), (3303, 407190859545, 64701083331480),
  (2883, 318003019204, 41948464387520), (2338, 369553554327, 8886568021700),
  (1950, 532729247780, 30216477565500), (2052, 331663577368, 9597922721780),
  (1591, 267009215574, 85319638175200), (2028, 56025552769, 11731986822020),
  (1560, 85608042681, 51546387109300), (1678, 0, 0),
  (1102, 598011943842, 318139373770), (1285, 582563377753, 23463973644040),
  (896, 522791858719, 21648048917570), (1141, 15741228205, 41237109687440),
  (798, 37452846153, 2845418800320), (837, 504769794123, 12443341522100)]

/-- `vsop87d_dict.py` 25903-25932. -/
def saturnR5 : List (ℕ × ℕ × ℕ) := saturnR5_0

/-- `vsop87d_dict.py` 23485-25933 `_planets[("Saturn", "R")]`. -/
def saturnR : List (List (ℕ × ℕ × ℕ)) :=
  [saturnR0, saturnR1, saturnR2, saturnR3, saturnR4, saturnR5]

end Verif.Data

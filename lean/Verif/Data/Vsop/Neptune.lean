import Mathlib.Data.Nat.Notation

/-! Generated by tools/gen_vsop.py from vsop87d_dict.py; do not edit.
Each row is amplitude, phase and frequency in units of 1e-11. -/

namespace Verif.Data

/-- `vsop87d_dict.py` 29961-30060. -/
def neptuneL0_0 : List (ℕ × ℕ × ℕ) := [
  (531188633047, 0, 0), (1798475509, 290101273050, 3813303563780),
  (1019727662, 48580923660, 148447270830), (124531845, 483008090682, 3664856292950),
  (42064450, 541054991607, 296894541660), (37714589, 609221834946, 3516409022120),
  (33784734, 124488865578, 7626607127560), (16482741, 7729261, 49155792945680),
  (9198582, 493747059924, 3961750834610), (8994249, 27462142569, 17516605980020),
  (4216235, 198711914364, 7329712585900), (3364818, 103590121818, 3367961751290),
  (2284800, 420606932559, 445341812490), (1433512, 278340432711, 7478159856730),
  (900240, 207606702418, 10994568878850), (744996, 319032530145, 7181265315070),
  (506206, 574785370252, 11439910691340), (399552, 34972342569, 102124889455140),
  (345195, 346186210169, 4110198105440), (306338, 49684039897, 52126486180),
  (287322, 450523446022, 4818410980), (323004, 224815188609, 3219514480460),
  (340323, 330369900416, 7775054398390), (266605, 488932609483, 96320784650),
  (227079, 179713054538, 45342489381900), (244722, 124693337933, 956122755560),
  (232887, 250459795017, 13703302416240), (282170, 224565579693, 14659425171800),
  (251941, 578166597292, 38846515523820), (150180, 299706110414, 593789083320),
  (170404, 332390630650, 10846121608020), (151401, 219153094280, 3394024994380),
  (148295, 85948986145, 11143016149680), (118672, 367706204305, 244768055480),
  (101821, 570539236951, 11187458460), (97873, 280518260528, 807675484730),
  (103054, 440441222000, 7032818044240), (103305, 4078966679, 26063243090),
  (109300, 241599378049, 18324281464750), (73938, 132805041516, 52969096509460),
  (77725, 416446516424, 419278569400), (86379, 422834506045, 49007345674850),
  (81536, 519908046216, 49304240216510), (71503, 529530386579, 35033211960040),
  (64418, 354541016050, 16805251279940), (62570, 15028731465, 18227960680100),
  (58488, 350106873945, 14510977900970), (48276, 111259925628, 11291463420510),
  (47229, 457373229818, 4620979048510), (39124, 166569356050, 21329909543800),
  (47728, 12906212461, 48444438245600), (46858, 301699530327, 49867147645760),
  (38659, 238685706479, 292076130680), (47046, 449844660400, 17368158709190),
  (47565, 258404814824, 21989137757700), (44714, 547302733614, 17665053250850),
  (32279, 345759151220, 3071067209630), (28249, 413282446716, 659228213900),
  (24433, 455736848232, 10697674337190), (24661, 367822620786, 18175834193920),
  (24505, 155095867965, 711354700080), (21848, 104366818343, 3909624348430),
  (16936, 610896452834, 4472531777680), (22169, 274932970271, 25653994050650),
  (16614, 498188930613, 3761177077600), (17728, 355049134167, 137259812370),
  (17347, 214069234880, 4258645376270), (14953, 336405649131, 9889998852460),
  (14566, 69857991985, 155093985964600), (15676, 622010212025, 45490936652730),
  (13243, 561712542227, 6884370773410), (14837, 352557245517, 2560286266560),
  (12757, 4509743861, 1104570026390), (11988, 481687553351, 2411838995730),
  (11060, 178958277553, 742236354150), (12108, 187022663714, 7923501669220),
  (11698, 49005698002, 159634729290), (10459, 238743199893, 38135160823740),
  (11681, 385151357766, 21840690486870), (8744, 14168568610, 14807872442630),
  (9196, 100274090619, 7207328558160), (11343, 81432278263, 52549817940060),
  (10097, 503383557061, 60176425067620), (8035, 177685723010, 21244832110),
  (8382, 307534786987, 127202438720), (10803, 292081211459, 29318850343600),
  (7666, 152223325105, 11588357962170), (7531, 537537256533, 510780943070),
  (8691, 474352784364, 14362530630140), (10183, 115395455831, 624494281435360),
  (8283, 35956716764, 13851749687070), (9544, 402452832984, 15253214255120),
  (7274, 410937535938, 25143213107580), (7465, 172131945843, 3101948863700),
  (6902, 462452068308, 270831298570), (7094, 511528393609, 31219908396260),
  (7929, 210765101655, 2708733537390), (6156, 350746507109, 2857180808220),
  (7134, 205292376023, 27825883401880), (8193, 258588219154, 14122580985640)]

/-- `vsop87d_dict.py` 30061-30160. -/
def neptuneL0_1 : List (ℕ × ℕ × ℕ) := [
  (5499, 209250039025, 169692102940), (5279, 409390686798, 98311585891360),
  (6947, 348041784595, 41529185818120), (5916, 68957324226, 6225142559510),
  (5925, 402504592620, 25505546779820), (4606, 117779101436, 4324084506850),
  (5357, 363061058987, 541662597140), (5918, 257693824084, 1017515251057320),
  (5482, 307979737280, 32983706636550), (3956, 500418696742, 18472728735580),
  (5408, 331313295602, 52820649238630), (4767, 491981150665, 45639383923560),
  (3770, 157277409442, 3271640966640), (3924, 492763242635, 18027386923090),
  (3707, 482965453201, 22137585028530), (3802, 496279204998, 59465070367540),
  (4014, 163905164030, 4058071619260), (3061, 39713858313, 143628859850),
  (3261, 465478978469, 2922619938800), (3474, 565891305944, 39557870223900),
  (2918, 591079083895, 122384027740), (3649, 388114678609, 49452687487340),
  (3225, 557423738665, 101413534755060), (2845, 56009386585, 14414657116320),
  (2848, 55423029727, 56782400073240), (3440, 170887250883, 1253017297220),
  (3267, 563287799820, 48858898404020), (3107, 579335949207, 10549227066360),
  (2712, 243726364359, 6076695288680), (3202, 221483496593, 4105379694460),
  (3134, 469665220513, 8285835341460), (3590, 569939670162, 112434166877000),
  (2967, 54448940101, 13554855145410), (3211, 419927605853, 29170403072770),
  (2899, 599669788291, 2263391724900), (3143, 293495725805, 3123193695810),
  (2729, 462707721219, 562907429250), (2513, 560391563025, 1912245511120),
  (2690, 532070128202, 200573757010), (2630, 600855841124, 3716982779130),
  (2296, 606934502789, 45194042111070), (2858, 488677262419, 25802441321480),
  (2879, 512239168488, 3865430049960), (2270, 208634524182, 3005628079050),
  (2301, 335951602914, 102836244155220), (3001, 359143817947, 21181462272970),
  (2237, 38455553470, 362333672240), (2901, 324755614136, 36648562929500),
  (2592, 136262641469, 3542472265210), (2418, 493467056526, 4769426319340),
  (2089, 579838063413, 466586644600), (2586, 269392971321, 3818121974760),
  (1913, 553560681085, 14956319713460), (1971, 600790964671, 3420088237470),
  (2586, 624984047544, 3808485152800), (2098, 457819744766, 101976442184310),
  (1869, 385907708723, 91104257333200), (2486, 521235809332, 14000196957900),
  (1795, 168012868451, 105938193018920), (2326, 282664069146, 80794979911340),
  (1984, 554763522932, 102273336725970), (1919, 510717766499, 21692243216040),
  (2004, 547811228948, 6373589830340), (2021, 415631916516, 17813500521680),
  (1760, 600927149342, 17219711438360), (2140, 265037925793, 70066423920080),
  (1988, 335850272780, 18621176006410), (1956, 501527508588, 29467297614430),
  (1966, 407957525462, 2060692781950), (1637, 53823942149, 6735923502580),
  (1540, 262327849119, 4175637236020), (1810, 581430038477, 12991947716160),
  (1776, 437047808449, 32835259365720), (1460, 263664516309, 285707083200),
  (1388, 210598045632, 393215326310), (1352, 55618245459, 65439130580),
  (1668, 277543377384, 1615350969460), (1338, 37643611305, 1401464568050),
  (1218, 73456434750, 42659819087600), (1531, 454891769768, 52672201967800),
  (1610, 340993944436, 40313419222450), (1361, 448227243414, 1763798240290),
  (1589, 559323020112, 330247939106200), (1132, 564520725360, 15104766984290),
  (1357, 406399031430, 2682670294300), (1494, 498692049495, 66672398925700),
  (1077, 430911470250, 63313944640), (1042, 602756893581, 10601353552540),
  (1060, 74679491358, 48736514376280), (1310, 378526380930, 38698068252990),
  (1342, 452685061062, 56363121503840), (986, 600924269, 8137388070630),
  (1232, 517443930901, 33132153907380), (929, 451267465978, 3839366806870),
  (956, 350447791020, 6495973858080), (929, 443109514438, 3787240320690),
  (926, 609803297747, 414460158420), (972, 59038366513, 890683624980),
  (1246, 469840351226, 38994962794650), (1009, 598451242784, 14214083359310)]

/-- `vsop87d_dict.py` 30161-30260. -/
def neptuneL0_2 : List (ℕ × ℕ × ℕ) := [
  (1020, 83233892300, 3935687591520), (1013, 37845630298, 3690919536040),
  (940, 242688145966, 34321857259960), (974, 523958752786, 25357099508990),
  (964, 509748190218, 35744566660120), (835, 145568626670, 3521227433100),
  (1077, 71409061316, 4407092647100), (1083, 227578897621, 690109867970),
  (938, 503471583911, 6936497259590), (1078, 120253141912, 3568535508300),
  (1027, 18243183397, 8434282612290), (764, 462720907712, 83008140250),
  (1013, 42234855022, 3245577723550), (939, 450445799766, 36500115658670),
  (756, 82872484717, 1752610781830), (916, 389409205418, 3824491022240),
  (736, 478125743795, 536844186160), (762, 1897337130, 18939315380180),
  (738, 231770478416, 4232582133180), (860, 482440483506, 21033015002140),
  (888, 320360339895, 34884764689210), (916, 504967792934, 3802116105320),
  (638, 63267396269, 24431858407500), (636, 102615137352, 208063082474060),
  (774, 544432678139, 36797010200330), (644, 194044989547, 44631134681820),
  (631, 482928491724, 46053844081980), (855, 357592750113, 43978275515400),
  (678, 448687912809, 35181659230870), (724, 489141609280, 11950691634410),
  (594, 59315717529, 49103666459500), (655, 199014093000, 1901058052660),
  (580, 257189536188, 49207919431860), (694, 8328521209, 567725840230),
  (733, 581485239057, 2974746424980), (666, 342196897591, 17909821306330),
  (678, 29428615814, 17123390653710), (635, 213805182663, 16412035953630),
  (623, 561454940380, 28537238101960), (529, 188063108785, 41677633088950),
  (529, 513250788030, 69774347789400), (500, 149548514415, 70485702489480),
  (487, 497772067947, 27406604832480), (666, 626456825266, 147467378837040),
  (532, 25784352716, 47733083545520), (557, 71378452161, 8071948940050),
  (556, 260791360513, 41826080359780), (584, 429064541383, 1667477455640),
  (524, 542759392280, 29021955801940), (524, 29054995359, 24723934538180),
  (541, 436400580938, 81506334611420), (526, 166512720297, 9741551581630),
  (497, 472640318293, 40164971951620), (432, 298481475894, 10038446123290),
  (382, 28067758468, 838557138800), (424, 616774845481, 17878939652260),
  (484, 1535318279, 73879727483860), (518, 448916591410, 87583029900100),
  (506, 538611121207, 40461866493280), (396, 462747640832, 615033915430),
  (466, 23340415764, 12099138905240), (409, 308849480895, 5928248017850),
  (470, 501853200224, 31368355667090), (442, 368919475089, 45787831194390),
  (384, 369499925394, 16093896579860), (364, 76192181046, 10400779795530),
  (416, 26652109651, 10309277421860), (401, 406530055968, 1466903698630),
  (454, 372767803715, 47643131808350), (434, 33533802200, 98460033162190),
  (340, 99915726716, 3154075349880), (420, 365147769268, 2049505323490),
  (334, 35121412008, 122743444298860), (323, 545836731979, 91815612033280),
  (407, 419457842203, 30979958751760), (381, 1364856960, 49549008271990),
  (334, 405924071124, 833738727820), (380, 317063415023, 48762577619370),
  (309, 48352303405, 11802244363580), (380, 270238752925, 13411226285560),
  (362, 488985810610, 43829828244570), (327, 291090790412, 50578502345840),
  (308, 96082817124, 2114944454070), (288, 148123872077, 22041264243880),
  (293, 256582281789, 66253120356300), (331, 437715965811, 18079513409270),
  (326, 246104924164, 16953698550770), (289, 263591886391, 5577101804070),
  (288, 502487283285, 144073353842660), (344, 148930997270, 16656804009110),
  (266, 63672427386, 7918683258240), (268, 502354540478, 37741945497430),
  (308, 150185265748, 7722927912210), (324, 530240189273, 45761767951300),
  (265, 108736632800, 45045594840240), (264, 83337660655, 48837653571910),
  (290, 180003152563, 10186893394120), (262, 230390003360, 49473932319450),
  (325, 552669889053, 44126722786230), (254, 2963623277, 11736805233000)]

/-- `vsop87d_dict.py` 30261-30360. -/
def neptuneL0_3 : List (ℕ × ℕ × ℕ) := [
  (300, 17435705540, 25291660378410), (315, 534885013040, 18376407950930),
  (313, 545945846595, 1349338081870), (306, 523085809622, 4524658263860),
  (237, 32676889138, 20884567731310), (263, 266670785888, 46473122651380),
  (234, 182700149824, 5217580628314840), (275, 504385701142, 15615547927360),
  (265, 564967127743, 32686812094890), (247, 174540930625, 6587476231750),
  (269, 609827783249, 165403263386460), (229, 225832077914, 19066517818900),
  (294, 545249564193, 20618554843720), (238, 155647021369, 7988940799800),
  (230, 613158632762, 17834745353790), (274, 410829870815, 51838463239980),
  (225, 386300359251, 17198466606250), (228, 248511565618, 1256615169998280),
  (272, 561149862463, 14833935685720), (214, 145987216039, 52257741809380),
  (211, 404791980901, 620532530600750), (266, 99036038827, 20910630974400),
  (230, 54049951530, 53261172640140), (226, 384152961620, 28362727588040),
  (243, 532730346969, 48592885516430), (209, 435051470487, 53680451209540),
  (232, 301948719112, 1093382567930), (264, 570536379124, 49033408917940),
  (280, 399993658196, 67480074410430), (246, 37698964335, 15763995198190),
  (219, 567679857772, 5209954021187280), (251, 152353965506, 685291456990),
  (203, 544328656642, 14563104387150), (238, 96169723853, 49718700374930),
  (219, 452300776062, 161589959822680), (275, 237619210741, 211876386037840),
  (258, 512448148780, 60887779767700), (260, 388543008475, 51307988101300),
  (191, 372574595369, 6522037101170), (211, 6484535455, 21543795945210),
  (236, 395835282821, 14148644228730), (189, 528135043909, 37715882254340),
  (243, 435559878377, 48295990974770), (243, 606808644973, 15401661525950),
  (249, 157215637373, 1422709400160), (238, 193340192445, 50015594916590),
  (209, 502893682321, 36455921360200), (227, 572984298540, 154382631264520),
  (217, 245036922991, 18717496791060), (181, 165699502247, 162720593092160),
  (214, 160213179145, 1130633269480), (203, 74638490279, 1455716240170),
  (192, 317719161639, 34347920503050), (177, 150027795761, 944935297100),
  (177, 3038098292, 16560483224460), (176, 464462444674, 31516802937920),
  (208, 265835778368, 49601134758170), (174, 276155855705, 4917873590170),
  (196, 195549714182, 33577495719870), (200, 416839394758, 28511174858870),
  (199, 6168021293, 7355775828990), (188, 617288913873, 53532003938710),
  (215, 192414563346, 55269738935910), (166, 549038139690, 1013553500222710),
  (192, 96973434120, 30423420369990), (209, 534065233845, 1364213866500),
  (203, 511234865419, 32472925693480), (177, 350680841790, 20736120460480),
  (174, 195010708561, 31931263096340), (187, 557685931698, 26610116806210),
  (181, 143525075751, 27974330672710), (165, 400537112057, 49356366702690),
  (191, 168313683465, 56337058260750), (173, 393200456456, 23890195810360),
  (161, 596143146317, 3612729806770), (194, 237664231450, 94498282327580),
  (165, 97421918976, 55651766803760), (189, 111279570541, 112726243007680),
  (172, 75085513952, 26758564077040), (193, 212636756833, 2035030502114640),
  (181, 210814562080, 11387784205160), (194, 113504964219, 5725549074900),
  (181, 623699820519, 35596119389290), (198, 568125942959, 628010690457480),
  (173, 515083799917, 47494684537520), (151, 166981962338, 11653797092750),
  (150, 542593657173, 52698265210890), (205, 416096717573, 71144930703380),
  (177, 349360697678, 42122974901440), (168, 52839230204, 48710451133190),
  (160, 477712663799, 52401370669230), (145, 281448128781, 151280682400820),
  (146, 499570112660, 14266209845490), (188, 82104161550, 1021031660079440),
  (145, 496888131586, 118930140735080), (181, 299704790590, 7574480641380),
  (176, 41626373842, 22286032299360), (137, 296534226337, 620680977871580),
  (138, 122260849471, 18769623277240), (128, 253394068407, 27677436131050)]

/-- `vsop87d_dict.py` 30361-30383. -/
def neptuneL0_4 : List (ℕ × ℕ × ℕ) := [
  (130, 304810765699, 31071461125430), (122, 301323006886, 7084944530420),
  (111, 77449448649, 17935884549420), (141, 18423889807, 13140394986990),
  (126, 577648809669, 52523754696970), (124, 293225731024, 17961947792510),
  (111, 618471578216, 98163138620530), (141, 263342951123, 38161224066830),
  (110, 525053027081, 98608480433020), (96, 386591534559, 24012579838100),
  (120, 378755085035, 105789745748090), (93, 454014016637, 3669674703930),
  (109, 153327585900, 41974527630610), (94, 421870300178, 102421783996800),
  (109, 215905156247, 28956516671360), (104, 20665642552, 56485505531580),
  (81, 189134135215, 3660037881970), (80, 438832594589, 1013701947493540),
  (80, 173940577376, 3950563376150), (84, 81316746605, 17071264167530),
  (90, 60145818457, 3676043751410), (74, 492511651321, 154945538693770),
  (72, 506852406179, 24994765836750)]

/-- `vsop87d_dict.py` 29960-30384. -/
def neptuneL0 : List (ℕ × ℕ × ℕ) := List.flatten [
  neptuneL0_0, neptuneL0_1, neptuneL0_2, neptuneL0_3, neptuneL0_4]

/-- `vsop87d_dict.py` 30386-30485. -/
def neptuneL1_0 : List (ℕ × ℕ × ℕ) := [
  (3837687716731, 0, 0), (16604187, 486319129565, 148447270830),
  (15807148, 227923488532, 3813303563780), (3334701, 368199676020, 7626607127560),
  (1305840, 367320813491, 296894541660), (604832, 150477747549, 3516409022120),
  (178623, 345318524147, 3961750834610), (106537, 245126138334, 445341812490),
  (105747, 275479326550, 3367961751290), (72684, 548724732699, 3664856292950),
  (57069, 521649804970, 52126486180), (57355, 185767603384, 11439910691340),
  (35368, 451676827545, 7478159856730), (32216, 590411489680, 7775054398390),
  (29871, 367043294114, 38846515523820), (28866, 516877529164, 956122755560),
  (28742, 516732589024, 244768055480), (25507, 524526281928, 16805251279940),
  (24869, 473193067810, 18227960680100), (20205, 578945415677, 102124889455140),
  (19022, 182981144269, 48444438245600), (18661, 131606255521, 49867147645760),
  (15063, 495003893760, 13703302416240), (15094, 398705254940, 3219514480460),
  (10720, 244148149225, 419278569400), (11725, 489255650674, 7181265315070),
  (9581, 123188039594, 593789083320), (9606, 188534821556, 4110198105440),
  (8968, 1758559103, 807675484730), (9882, 608165628679, 711354700080),
  (7632, 551307048241, 7329712585900), (6992, 61688864282, 292076130680),
  (5543, 224141557794, 4620979048510), (4845, 371055823750, 11291463420510),
  (3700, 525713252333, 11143016149680), (3233, 610303038418, 7032818044240),
  (2939, 486520586648, 9889998852460), (2403, 290637675099, 60176425067620),
  (2398, 104343654629, 659228213900), (2784, 495821114677, 10846121608020),
  (2894, 420148844767, 38135160823740), (2111, 593089610785, 2560286266560),
  (2075, 520632201951, 3071067209630), (2126, 54976393136, 4105379694460),
  (2235, 238045158073, 45342489381900), (1859, 89409373259, 2411838995730),
  (2018, 342245274178, 3101948863700), (1700, 391715254287, 1104570026390),
  (1776, 386571077241, 39557870223900), (1644, 15855999051, 15253214255120),
  (1646, 334591387314, 4472531777680), (1876, 259784179105, 3394024994380),
  (1614, 42137145545, 17516605980020), (1468, 612983933526, 155093985964600),
  (1408, 613722948564, 49007345674850), (1207, 59525736062, 31219908396260),
  (1336, 328611928206, 49304240216510), (1176, 587266726996, 541662597140),
  (1517, 312967210501, 49155792945680), (1053, 460375516830, 7923501669220),
  (1037, 489007314395, 127202438720), (1034, 593741289103, 3271640966640),
  (1038, 113470380744, 101413534755060), (1002, 185850922283, 510780943070),
  (983, 5345050384, 742236354150), (998, 173689827444, 102836244155220),
  (1193, 463176675581, 6076695288680), (940, 309103721222, 6225142559510),
  (994, 411489180313, 466586644600), (890, 87049255398, 3123193695810),
  (852, 535508394316, 14414657116320), (922, 512373360511, 14510977900970),
  (789, 37496785039, 2682670294300), (828, 406035194600, 11588357962170),
  (711, 314189997439, 27825883401880), (727, 139718382835, 21329909543800),
  (781, 10946327923, 17368158709190), (793, 613086312116, 56782400073240),
  (669, 450554989443, 2708733537390), (825, 135568908148, 12991947716160),
  (738, 356766018960, 17665053250850), (714, 624797992301, 10697674337190),
  (654, 113177751192, 6884370773410), (624, 1567750666, 2857180808220),
  (608, 460180625368, 18939315380180), (595, 857468445, 4258645376270),
  (530, 561201247153, 1253017297220), (521, 102371768017, 41529185818120),
  (639, 68930265745, 52969096509460), (526, 302138731705, 562907429250),
  (456, 444331571392, 4324084506850), (524, 343316448349, 3865430049960),
  (436, 241630174435, 8285835341460), (424, 195736011325, 47733083545520),
  (443, 339350946329, 35744566660120), (383, 190232196422, 2263391724900),
  (479, 555141744216, 3761177077600), (462, 380436154644, 34321857259960),
  (384, 560377408953, 59465070367540), (369, 445577410338, 690109867970)]

/-- `vsop87d_dict.py` 30486-30568. -/
def neptuneL1_1 : List (ℕ × ℕ × ℕ) := [
  (358, 369126616347, 393215326310), (352, 310952926034, 13554855145410),
  (368, 353577440355, 4058071619260), (424, 527159202779, 18175834193920),
  (361, 29018303419, 7207328558160), (390, 549512204296, 35033211960040),
  (378, 274122401337, 48837653571910), (372, 39980033572, 49473932319450),
  (353, 110614174053, 2060692781950), (296, 86351261285, 14956319713460),
  (307, 539420288683, 16093896579860), (395, 193577214824, 1013701947493540),
  (288, 228755739359, 4769426319340), (295, 248737537240, 1912245511120),
  (290, 18636083306, 14362530630140), (266, 309977370364, 6936497259590),
  (266, 121002824826, 50578502345840), (252, 312745026026, 46053844081980),
  (328, 50849285663, 620680977871580), (257, 364119914774, 44631134681820),
  (239, 554080102299, 91104257333200), (265, 62702473701, 25357099508990),
  (287, 244403568436, 1667477455640), (231, 247026250085, 45490936652730),
  (230, 324571542922, 106649547719000), (282, 148595620175, 98311585891360),
  (212, 541931177641, 6495973858080), (213, 164175339637, 108912939443900),
  (238, 269801319489, 88294384600180), (210, 453976756699, 109332218013300),
  (220, 230038816175, 105226838318840), (256, 42073598460, 2390594163620),
  (216, 544225918870, 3909624348430), (201, 258746514605, 11950691634410),
  (224, 443751392203, 63989728631400), (186, 250651218075, 48736514376280),
  (189, 405785534221, 12099138905240), (184, 224245977278, 81506334611420),
  (202, 343517732411, 4524658263860), (175, 449165234532, 17123390653710),
  (171, 550633466316, 17909821306330), (200, 612663205401, 1422709400160),
  (173, 261090344107, 38994962794650), (167, 394754384833, 7722927912210),
  (166, 341009128748, 8137388070630), (163, 388198848446, 55651766803760),
  (164, 149614763046, 6373589830340), (176, 386129425367, 14833935685720),
  (161, 222215642318, 57493754773320), (171, 66899426684, 17931066138440),
  (161, 121480182441, 102443028828910), (155, 325842414799, 1025141858184880),
  (183, 545168150656, 21840690486870), (152, 335145509017, 28537238101960),
  (152, 42398786475, 27406604832480), (146, 570714579127, 41948464387520),
  (156, 64321524870, 102984691426050), (147, 430958930740, 15763995198190),
  (147, 180689177510, 37741945497430), (140, 149826604627, 38698068252990),
  (137, 214480243915, 56363121503840), (127, 398726599710, 8434282612290),
  (134, 416039455079, 16953698550770), (121, 29300927469, 20618554843720),
  (129, 267625057010, 18079513409270), (134, 318868986487, 16656804009110),
  (135, 507517561780, 42659819087600), (136, 181672451740, 15104766984290),
  (129, 364795525602, 18376407950930), (116, 606435563172, 22041264243880),
  (123, 446641157829, 102273336725970), (112, 434485256988, 13851749687070),
  (116, 558946529961, 3568535508300), (108, 103796693383, 48858898404020),
  (108, 210378485880, 49452687487340), (106, 87068583107, 105938193018920),
  (97, 74486741478, 48592885516430), (95, 554259914856, 49718700374930),
  (85, 316062141266, 52257741809380), (97, 605634803604, 48295990974770),
  (95, 23111852730, 50015594916590), (84, 264687252518, 53680451209540),
  (74, 390678924318, 101976442184310)]

/-- `vsop87d_dict.py` 30385-30569. -/
def neptuneL1 : List (ℕ × ℕ × ℕ) := List.flatten [
  neptuneL1_0, neptuneL1_1]

/-- `vsop87d_dict.py` 30571-30627. -/
def neptuneL2_0 : List (ℕ × ℕ × ℕ) := [
  (53892649, 0, 0), (281251, 119084538887, 3813303563780),
  (295693, 185520292248, 148447270830), (270190, 572143228148, 7626607127560),
  (23023, 121035596452, 296894541660), (7333, 54033306830, 244768055480),
  (9057, 442544992035, 3516409022120), (5223, 67427930044, 16805251279940),
  (5201, 302338671812, 18227960680100), (4288, 384351844003, 11439910691340),
  (3925, 353214557374, 48444438245600), (3741, 590238217874, 49867147645760),
  (2966, 31002477611, 445341812490), (3415, 55971639038, 7478159856730),
  (3255, 184921884906, 17516605980020), (2157, 189135758747, 38846515523820),
  (2211, 437997092240, 711354700080), (1847, 348574435762, 956122755560),
  (2451, 468586840176, 49155792945680), (1844, 512281562096, 3367961751290),
  (2204, 169321574906, 7775054398390), (1652, 255859494053, 3664856292950),
  (1309, 452400192922, 102124889455140), (1124, 38710602242, 13703302416240),
  (664, 88101734307, 419278569400), (497, 224615784762, 39557870223900),
  (512, 622609200672, 38135160823740), (582, 525716719826, 3101948863700),
  (446, 36647221351, 9889998852460), (383, 548585528762, 593789083320),
  (375, 461250246774, 807675484730), (354, 130783918287, 60176425067620),
  (259, 566033623678, 11291463420510), (247, 289695614593, 18939315380180),
  (245, 426572913391, 22041264243880), (200, 52604535784, 6495973858080),
  (191, 488786653062, 3961750834610), (233, 316423779113, 4110198105440),
  (248, 585877831382, 105938193018920), (194, 237949641473, 7329712585900),
  (227, 20028518978, 6076695288680), (184, 301962045713, 101413534755060),
  (190, 557500985081, 34321857259960), (172, 366036463613, 47733083545520),
  (172, 59550457102, 4620979048510), (182, 192429384025, 18376407950930),
  (171, 161368476689, 35744566660120), (173, 623717119485, 49304240216510),
  (217, 146218158211, 7181265315070), (178, 34928799031, 102836244155220),
  (169, 491086673212, 16656804009110), (157, 589200571154, 16953698550770),
  (182, 233457064554, 15253214255120), (151, 381621340568, 14659425171800),
  (136, 275150881988, 14414657116320), (104, 603262825314, 52969096509460),
  (76, 20932812381, 45342489381900)]

/-- `vsop87d_dict.py` 30570-30628. -/
def neptuneL2 : List (ℕ × ℕ × ℕ) := neptuneL2_0

/-- `vsop87d_dict.py` 30630-30644. -/
def neptuneL3_0 : List (ℕ × ℕ × ℕ) := [
  (31254, 0, 0), (12461, 604431418812, 148447270830),
  (14541, 135337075856, 7626607127560), (11547, 611257808366, 3813303563780),
  (1351, 493951495175, 296894541660), (741, 235936954597, 16805251279940),
  (715, 127409542804, 18227960680100), (537, 523632185196, 48444438245600),
  (523, 416769839601, 49867147645760), (664, 55871435877, 3101948863700),
  (301, 269253200796, 711354700080), (194, 205904114139, 13703302416240),
  (206, 251012178002, 7478159856730), (160, 563111039032, 11439910691340),
  (149, 309327713923, 3516409022120)]

/-- `vsop87d_dict.py` 30629-30645. -/
def neptuneL3 : List (ℕ × ℕ × ℕ) := neptuneL3_0

/-- `vsop87d_dict.py` 30647-30648. -/
def neptuneL4_0 : List (ℕ × ℕ × ℕ) := [
  (113998, 314159265359, 0), (605, 318211885677, 7626607127560)]

/-- `vsop87d_dict.py` 30646-30649. -/
def neptuneL4 : List (ℕ × ℕ × ℕ) := neptuneL4_0

/-- `vsop87d_dict.py` 30650-30650. -/
def neptuneL5_0 : List (ℕ × ℕ × ℕ) := [
  (874, 314159265359, 0)]

/-- `vsop87d_dict.py` 30650-30650. -/
def neptuneL5 : List (ℕ × ℕ × ℕ) := neptuneL5_0

/-- `vsop87d_dict.py` 29959-30651 `_planets[("Neptune", "L")]`. -/
def neptuneL : List (List (ℕ × ℕ × ℕ)) :=
  [neptuneL0, neptuneL1, neptuneL2, neptuneL3, neptuneL4, neptuneL5]

/-- `vsop87d_dict.py` 30654-30753. -/
def neptuneB0_0 : List (ℕ × ℕ × ℕ) := [
  (3088622933, 144104372626, 3813303563780), (27780087, 591271882843, 7626607127560),
  (27623609, 0, 0), (15355490, 252123799481, 3664856292950),
  (15448133, 350877080888, 3961750834610), (1999919, 150998669505, 7478159856730),
  (1967540, 437778195768, 148447270830), (1015137, 321561035875, 3516409022120),
  (605767, 280246601405, 7329712585900), (594878, 212892708114, 4110198105440),
  (588805, 318655882497, 296894541660), (401830, 416883287237, 11439910691340),
  (254333, 327120499438, 45342489381900), (261647, 376722704749, 21329909543800),
  (279964, 168165309699, 7775054398390), (205590, 425652348864, 52969096509460),
  (140455, 352969556376, 13703302416240), (98530, 416774829927, 3367961751290),
  (51257, 195121181203, 445341812490), (67971, 466970781659, 7181265315070),
  (41931, 541783694467, 11143016149680), (41822, 594832001477, 11291463420510),
  (30637, 93620571932, 4258645376270), (11084, 588898793049, 10846121608020),
  (9620, 3944255108, 7032818044240), (9664, 22455797403, 7923501669220),
  (9728, 530069593532, 3219514480460), (7386, 300684933642, 42659819087600),
  (7087, 12535040656, 10994568878850), (6021, 620514068152, 11588357962170),
  (6169, 362098109648, 98311585891360), (4777, 75210194972, 593789083320),
  (6391, 584646101060, 14807872442630), (6251, 241678769385, 15253214255120),
  (4539, 558182098700, 17516605980020), (5006, 460815664851, 105938193018920),
  (4289, 419647392821, 4769426319340), (5795, 507516716087, 41529185818120),
  (4749, 251605725604, 3761177077600), (4119, 172779509865, 2857180808220),
  (4076, 600252170354, 14510977900970), (4429, 565995321659, 9889998852460),
  (3950, 274104636753, 35033211960040), (4091, 161787956945, 3909624348430),
  (4131, 440682554313, 3716982779130), (4710, 350929350767, 3865430049960),
  (4440, 478977105547, 3808485152800), (4433, 123386935925, 3818121974760),
  (3762, 483940791709, 49155792945680), (2606, 120956732792, 45194042111070),
  (2537, 218628045751, 45490936652730), (2328, 519779918719, 7207328558160),
  (2502, 85987904350, 10697674337190), (2342, 81387240947, 419278569400),
  (1981, 46617960831, 18472728735580), (1963, 601909114576, 4407092647100),
  (2180, 70099749844, 20618554843720), (1811, 40456996647, 4058071619260),
  (1814, 364699555185, 22041264243880), (1705, 613551142362, 18175834193920),
  (1855, 561635630213, 3568535508300), (1595, 297147156093, 3787240320690),
  (1785, 242154818096, 38846515523820), (1595, 305266110075, 3839366806870),
  (1437, 148678704605, 13554855145410), (1387, 246149266117, 13851749687070),
  (1366, 152026779665, 6884370773410), (1575, 358964541604, 3802116105320),
  (1297, 506156596196, 3394024994380), (1487, 20211121607, 3005628079050),
  (1504, 580298577327, 4620979048510), (1192, 87275514483, 4232582133180),
  (1569, 243405967107, 3824491022240), (1207, 184658687853, 25143213107580),
  (1015, 53439848924, 12991947716160), (999, 247463873948, 31219908396260),
  (990, 341514319052, 14414657116320), (963, 431733242907, 15104766984290),
  (1020, 98226686775, 14362530630140), (941, 102993053785, 22137585028530),
  (938, 243648356625, 56782400073240), (1111, 65175024456, 14659425171800),
  (777, 175975222, 21840690486870), (895, 25123869620, 3071067209630),
  (795, 580519741659, 14956319713460), (737, 340060492866, 44631134681820),
  (719, 143795191278, 807675484730), (720, 651007550, 46053844081980),
  (766, 403399506246, 52257741809380), (666, 139457824982, 8434282612290),
  (584, 101405548136, 53680451209540), (596, 62390100715, 3521227433100),
  (598, 539946724188, 4105379694460), (475, 580072248338, 742236354150),
  (510, 134478579740, 25802441321480), (458, 525325523118, 8071948940050),
  (421, 324496387889, 41677633088950), (446, 119167306357, 18027386923090),
  (471, 92632922375, 4472531777680), (387, 168488418788, 18324281464750)]

/-- `vsop87d_dict.py` 30754-30825. -/
def neptuneB0_1 : List (ℕ × ℕ × ℕ) := [
  (375, 15223869165, 25505546779820), (354, 421526988674, 96320784650),
  (379, 216947487177, 10549227066360), (341, 479194051680, 11020632121940),
  (427, 515774894584, 3154075349880), (302, 345706306280, 10038446123290),
  (298, 226790695187, 63989728631400), (279, 25689162963, 3950563376150),
  (320, 358085653166, 4524658263860), (269, 572024180826, 3676043751410),
  (247, 61040148804, 18621176006410), (245, 64173616273, 41948464387520),
  (235, 73189197665, 1021328554621100), (232, 37399822852, 49007345674850),
  (230, 576570492457, 1253017297220), (240, 413447692727, 52126486180),
  (279, 162614865256, 29467297614430), (238, 218528916550, 21989137757700),
  (262, 308384135298, 659228213900), (217, 293214905312, 2708733537390),
  (217, 469210602828, 40610313764110), (219, 135212712560, 21692243216040),
  (200, 235215465744, 60595703637020), (232, 392583619589, 151280682400820),
  (223, 552392277606, 18769623277240), (190, 29169556516, 29170403072770),
  (236, 312464145036, 56363121503840), (193, 53675942386, 6076695288680),
  (215, 378391259001, 10309277421860), (172, 563262770743, 711354700080),
  (164, 414700645532, 7722927912210), (162, 72021213236, 1104570026390),
  (160, 423490438166, 48736514376280), (191, 37651439206, 3101948863700),
  (157, 102419759383, 628307584999140), (157, 442530429545, 620680977871580),
  (178, 624797160202, 31639186965660), (161, 565988283675, 34321857259960),
  (153, 558405022784, 25208652238160), (189, 480791039970, 64112112659140),
  (166, 550438043692, 66253120356300), (146, 508949604858, 28659622129700),
  (145, 213015521881, 204249778910280), (156, 219452173251, 27406604832480),
  (148, 485696640135, 44275170057060), (187, 496121139073, 158907289528380),
  (155, 228260574227, 14214083359310), (134, 129277093566, 45639383923560),
  (126, 559769497652, 17935884549420), (146, 253359213478, 25653994050650),
  (140, 157962199954, 7574480641380), (123, 5442220184, 94498282327580),
  (122, 190676379802, 41826080359780), (154, 186865302773, 33132153907380),
  (144, 552229258454, 1401464568050), (138, 280728175526, 8285835341460),
  (107, 66995358132, 19066517818900), (114, 148894980280, 25357099508990),
  (110, 532587573069, 24012579838100), (105, 65548440578, 17368158709190),
  (102, 258735617801, 45045594840240), (98, 44044795266, 32835259365720),
  (101, 471267656829, 11736805233000), (94, 54938580474, 29318850343600),
  (95, 217636214523, 10186893394120), (93, 63687810471, 37715882254340),
  (91, 584828809934, 1013701947493540), (89, 102830167997, 102124889455140),
  (94, 179320597168, 49304240216510), (80, 158140274465, 6915252427480),
  (75, 23453373368, 6373589830340), (71, 151961989690, 48858898404020)]

/-- `vsop87d_dict.py` 30653-30826. -/
def neptuneB0 : List (ℕ × ℕ × ℕ) := List.flatten [
  neptuneB0_0, neptuneB0_1]

/-- `vsop87d_dict.py` 30828-30909. -/
def neptuneB1_0 : List (ℕ × ℕ × ℕ) := [
  (227279214, 380793089870, 3813303563780), (1803120, 197576485377, 7626607127560),
  (1385733, 482555548018, 3664856292950), (1433300, 314159265359, 0),
  (1073298, 608054240712, 3961750834610), (147903, 385766231348, 7478159856730),
  (136448, 47764957338, 148447270830), (70285, 618782052139, 3516409022120),
  (51899, 505221791891, 7329712585900), (37273, 489476629246, 4110198105440),
  (42568, 30721737205, 11439910691340), (37104, 575999349109, 296894541660),
  (26399, 521566335936, 21329909543800), (16949, 426463671859, 7775054398390),
  (18747, 90426522185, 45342489381900), (12951, 617709713139, 52969096509460),
  (10502, 120336443465, 13703302416240), (4416, 125478204684, 11143016149680),
  (4383, 614147099615, 7181265315070), (3694, 94837702528, 3367961751290),
  (2957, 477532871210, 445341812490), (2698, 192435531119, 11291463420510),
  (1989, 396637567224, 4258645376270), (1150, 430568700024, 3761177077600),
  (871, 481775882249, 15253214255120), (944, 221777772050, 10994568878850),
  (936, 117054983940, 14807872442630), (925, 240329074000, 20618554843720),
  (690, 157381082857, 3865430049960), (624, 279466003645, 7923501669220),
  (726, 413829519132, 2857180808220), (640, 246161252327, 11588357962170),
  (531, 296991530500, 9889998852460), (537, 195986772922, 22041264243880),
  (539, 206690307827, 4058071619260), (716, 55781847010, 35033211960040),
  (563, 184072805158, 98311585891360), (533, 134787677940, 4769426319340),
  (566, 180111775954, 17516605980020), (449, 162191691011, 14414657116320),
  (371, 274239666472, 41529185818120), (381, 611910193382, 42659819087600),
  (366, 239752585360, 12991947716160), (456, 319611413854, 10846121608020),
  (327, 362341506247, 3818121974760), (328, 89613145346, 3808485152800),
  (341, 387265469070, 3568535508300), (331, 448858774501, 46053844081980),
  (414, 103543720726, 7032818044240), (310, 51297445145, 3716982779130),
  (287, 218351651800, 49155792945680), (274, 611504724934, 52257741809380),
  (281, 381657117512, 593789083320), (298, 400532631258, 3909624348430),
  (265, 526569823181, 44631134681820), (319, 134097217817, 18472728735580),
  (203, 602944475303, 14956319713460), (205, 553935732020, 53680451209540),
  (226, 617710997862, 45490936652730), (186, 324302117645, 419278569400),
  (179, 491458426239, 45194042111070), (198, 230775852880, 14659425171800),
  (166, 116793600058, 7207328558160), (147, 210574339673, 4407092647100),
  (123, 198250467171, 4620979048510), (159, 346955908364, 14510977900970),
  (116, 588971113590, 3802116105320), (115, 473412534395, 3824491022240),
  (125, 342713474801, 25143213107580), (128, 151108932026, 22137585028530),
  (127, 17176461812, 13851749687070), (124, 585160407534, 105938193018920),
  (91, 238273591235, 3005628079050), (118, 527114846878, 3787240320690),
  (117, 535267669439, 3839366806870), (99, 519920708255, 13554855145410),
  (114, 437452353441, 38846515523820), (93, 464183693718, 10697674337190),
  (84, 135269684746, 3394024994380), (111, 356226463770, 18175834193920),
  (82, 318401661435, 4232582133180), (84, 551669920239, 807675484730)]

/-- `vsop87d_dict.py` 30827-30910. -/
def neptuneB1 : List (ℕ × ℕ × ℕ) := neptuneB1_0

/-- `vsop87d_dict.py` 30912-30936. -/
def neptuneB2_0 : List (ℕ × ℕ × ℕ) := [
  (9690766, 557123750291, 3813303563780), (78815, 362705474219, 7626607127560),
  (71523, 45476688580, 3664856292950), (58646, 314159265359, 0),
  (29915, 160671721861, 3961750834610), (6472, 560736756575, 7478159856730),
  (5800, 225341847151, 148447270830), (4309, 168126737666, 3516409022120),
  (3502, 239142672984, 11439910691340), (2649, 65061457644, 7329712585900),
  (1518, 37600329684, 21329909543800), (1223, 123116043030, 296894541660),
  (766, 545279753249, 45342489381900), (779, 207081431472, 52969096509460),
  (496, 26552533921, 4110198105440), (469, 587866293959, 7775054398390),
  (482, 563056237954, 13703302416240), (345, 180085651594, 7181265315070),
  (274, 286650141006, 3367961751290), (158, 463868656467, 20618554843720),
  (166, 124877330835, 22041264243880), (153, 287376446497, 11143016149680),
  (116, 363838544843, 11291463420510), (85, 43712705655, 445341812490),
  (104, 612597614674, 14414657116320)]

/-- `vsop87d_dict.py` 30911-30937. -/
def neptuneB2 : List (ℕ × ℕ × ℕ) := neptuneB2_0

/-- `vsop87d_dict.py` 30939-30947. -/
def neptuneB3_0 : List (ℕ × ℕ × ℕ) := [
  (273423, 101688979072, 3813303563780), (2274, 236805657126, 3664856292950),
  (2029, 533364321342, 7626607127560), (2393, 0, 0),
  (538, 321934211365, 3961750834610), (242, 452650721578, 11439910691340),
  (185, 104913770083, 7478159856730), (155, 362376309338, 3516409022120),
  (157, 394195369610, 148447270830)]

/-- `vsop87d_dict.py` 30938-30948. -/
def neptuneB3 : List (ℕ × ℕ × ℕ) := neptuneB3_0

/-- `vsop87d_dict.py` 30949-30949. -/
def neptuneB4_0 : List (ℕ × ℕ × ℕ) := [
  (5728, 266872693322, 3813303563780)]

/-- `vsop87d_dict.py` 30949-30949. -/
def neptuneB4 : List (ℕ × ℕ × ℕ) := neptuneB4_0

/-- `vsop87d_dict.py` 30950-30950. -/
def neptuneB5_0 : List (ℕ × ℕ × ℕ) := [
  (113, 470646877989, 3813303563780)]

/-- `vsop87d_dict.py` 30950-30950. -/
def neptuneB5 : List (ℕ × ℕ × ℕ) := neptuneB5_0

/-- `vsop87d_dict.py` 30652-30951 `_planets[("Neptune", "B")]`. -/
def neptuneB : List (List (ℕ × ℕ × ℕ)) :=
  [neptuneB0, neptuneB1, neptuneB2, neptuneB3, neptuneB4, neptuneB5]

/-- `vsop87d_dict.py` 30954-31053. -/
def neptuneR0_0 : List (ℕ × ℕ × ℕ) := [
  (3007013206102, 0, 0), (27062259490, 132999458930, 3813303563780),
  (1691764281, 325186138896, 3664856292950), (807830737, 518592836167, 148447270830),
  (537760613, 452113902845, 3516409022120), (495725642, 157105654815, 49155792945680),
  (274571970, 184552256801, 17516605980020), (135134095, 337220607384, 3961750834610),
  (121801825, 579754444303, 7626607127560), (100895397, 37702748681, 7329712585900),
  (69791722, 379617226928, 296894541660), (46687838, 574937810094, 3367961751290),
  (24593778, 50801728204, 10994568878850), (16939242, 159422166991, 7181265315070),
  (14229686, 107786112902, 7478159856730), (12011825, 192062131635, 102124889455140),
  (8394731, 67816895547, 14659425171800), (7571800, 107149263431, 38846515523820),
  (5720852, 259059512267, 445341812490), (4839672, 190685991070, 4110198105440),
  (4483492, 290573457534, 52969096509460), (4270202, 341343865825, 45342489381900),
  (4353790, 67985662370, 3219514480460), (4420804, 174993796503, 10846121608020),
  (2881063, 198600105123, 13703302416240), (2635535, 309755943422, 21329909543800),
  (3380930, 84810683275, 18324281464750), (2878942, 367415901855, 35033211960040),
  (2306293, 280962935724, 7032818044240), (2530149, 579839567009, 49007345674850),
  (2523132, 48630800015, 49304240216510), (2087303, 61858378281, 3394024994380),
  (1976522, 511703044560, 16805251279940), (1905254, 172186472126, 18227960680100),
  (1654039, 192782545887, 14510977900970), (1435072, 170005157785, 48444438245600),
  (1403029, 458914203187, 49867147645760), (1499193, 101623299513, 21989137757700),
  (1398860, 76220317620, 17665053250850), (1403377, 607659416908, 17368158709190),
  (1128560, 596661179805, 956122755560), (1228304, 159881465324, 7775054398390),
  (835414, 397066884218, 11439910691340), (811186, 300258880870, 4620979048510),
  (731925, 210447054189, 18175834193920), (615781, 297874625677, 10697674337190),
  (704778, 118738210880, 25653994050650), (502040, 138657803368, 593789083320),
  (530357, 424059166485, 11143016149680), (437096, 227029212923, 155093985964600),
  (400250, 125609325435, 807675484730), (421011, 189084929506, 3071067209630),
  (382457, 329965259685, 98311585891360), (422485, 553186169605, 52549817940060),
  (355389, 227847846648, 21840690486870), (280062, 154129714238, 9889998852460),
  (314499, 395932948594, 38135160823740), (280556, 454238271682, 4472531777680),
  (267738, 513323364247, 11291463420510), (333311, 575067616021, 3909624348430),
  (291625, 402398326341, 6884370773410), (321429, 150625025822, 45490936652730),
  (309196, 285452752153, 7207328558160), (345094, 135905860594, 29318850343600),
  (307439, 31964571332, 60176425067620), (251356, 353992782846, 31219908396260),
  (248152, 341078346726, 3761177077600), (306000, 272475094464, 624494281435360),
  (293532, 489079857814, 52820649238630), (234479, 59231043427, 4258645376270),
  (239628, 316441455173, 14362530630140), (214523, 362480283040, 27825883401880),
  (246198, 101506302015, 14122580985640), (174089, 555011789988, 56782400073240),
  (163934, 210166491786, 244768055480), (162897, 248946521653, 419278569400),
  (193455, 158425287580, 13851749687070), (155323, 328425127954, 3101948863700),
  (182469, 245244890571, 25505546779820), (177846, 414773474853, 1017515251057320),
  (174413, 153042999914, 32983706636550), (137649, 334900537767, 96320784650),
  (161011, 516655038482, 21181462272970), (113473, 496286007991, 14807872442630),
  (128823, 325521535448, 2411838995730), (107363, 326457701792, 105938193018920),
  (122732, 539399536941, 6225142559510), (120529, 308050145518, 18472728735580),
  (99356, 192888554099, 2857180808220), (97713, 259474415429, 659228213900),
  (124095, 311516750340, 22137585028530), (124693, 297042405451, 25143213107580),
  (114252, 25039919123, 59465070367540), (111006, 334276426767, 18027386923090),
  (120939, 192914010593, 2560286266560), (104667, 94883561775, 39557870223900),
  (109779, 543147520571, 49452687487340), (96919, 86184760695, 101413534755060),
  (98685, 89577952710, 48858898404020), (88968, 478109764779, 14414657116320)]

/-- `vsop87d_dict.py` 31054-31153. -/
def neptuneR0_1 : List (ℕ × ℕ × ℕ) := [
  (107888, 98700578434, 112434166877000), (97067, 262667400276, 29170403072770),
  (75131, 588936524779, 4324084506850), (93718, 609873565184, 52672201967800),
  (94822, 20662943940, 45639383923560), (70036, 239683345663, 42659819087600),
  (77187, 421076753240, 10549227066360), (89874, 325100749923, 25802441321480),
  (69133, 493031154435, 102836244155220), (90657, 169466970587, 36648562929500),
  (74242, 314479101276, 8285835341460), (57995, 86159785905, 6076695288680),
  (78695, 109307575550, 70066423920080), (57230, 81331949225, 292076130680),
  (63443, 439590123005, 14956319713460), (55698, 389047249911, 4769426319340),
  (56430, 515003563302, 52126486180), (56174, 542986960794, 91104257333200),
  (61746, 616453667559, 101976442184310), (70503, 8077330612, 4058071619260),
  (74677, 485904499980, 18621176006410), (61861, 478702599861, 1104570026390),
  (61135, 83712253227, 102273336725970), (61268, 570228826765, 17813500521680),
  (52887, 37458943972, 2708733537390), (56722, 352318112447, 21692243216040),
  (48819, 510789123481, 6495973858080), (63290, 439424910030, 80794979911340),
  (64062, 628297531806, 711354700080), (46356, 134735469284, 45194042111070),
  (60540, 340316162416, 29467297614430), (46900, 17048203552, 742236354150),
  (56766, 45048868231, 14000196957900), (55887, 106815733757, 17219711438360),
  (53761, 279644687008, 32835259365720), (43828, 604655696644, 13554855145410),
  (49549, 64106656292, 4105379694460), (53960, 291774494436, 56363121503840),
  (42961, 540175361431, 48736514376280), (51508, 9105540708, 21033015002140),
  (41889, 312343223889, 2922619938800), (47655, 390701760087, 6373589830340),
  (41639, 626847783513, 3271640966640), (41429, 445464156759, 3716982779130),
  (40745, 16043648294, 7923501669220), (48205, 184198373010, 40313419222450),
  (36912, 44771386183, 3005628079050), (47762, 88083849566, 330247939106200),
  (39465, 350565484069, 35744566660120), (42139, 63375113663, 34321857259960),
  (41275, 136370496322, 3123193695810), (42612, 355270845713, 3865430049960),
  (38931, 526691753270, 41529185818120), (38967, 525866056502, 38698068252990),
  (33734, 524400184426, 6735923502580), (40879, 355292279438, 33132153907380),
  (38768, 112288359393, 3818121974760), (37500, 608687972441, 3542472265210),
  (38831, 467876780698, 3808485152800), (38231, 626491054328, 38994962794650),
  (29976, 445759985804, 2263391724900), (31356, 7746010366, 1253017297220),
  (26341, 459559782754, 10601353552540), (27465, 599541587890, 20618554843720),
  (25152, 449867760320, 3420088237470), (24122, 517089441917, 12991947716160),
  (28997, 364927210210, 25357099508990), (27173, 437944546475, 14214083359310),
  (30634, 159348806560, 34884764689210), (31464, 105065113524, 10038446123290),
  (24056, 102801635413, 4175637236020), (22632, 472511111292, 8137388070630),
  (21942, 348416607882, 6915252427480), (26333, 301556008632, 36500115658670),
  (22355, 392220883921, 510780943070), (22498, 403487494425, 1912245511120),
  (22885, 158977064672, 18939315380180), (26520, 361427038042, 36797010200330),
  (25496, 243810518614, 35181659230870), (19111, 259694457001, 208063082474060),
  (19640, 615701741238, 3521227433100), (25688, 200512719767, 43978275515400),
  (21613, 332354204724, 11950691634410), (25389, 474025836522, 147467378837040),
  (18107, 535129342595, 24431858407500), (23295, 593767742799, 31639186965660),
  (22087, 481594755148, 8434282612290), (16972, 305105149940, 22041264243880),
  (20022, 499276451168, 17909821306330), (20370, 186508317889, 17123390653710),
  (19426, 204829970231, 541662597140), (22628, 27205783433, 66672398925700),
  (19072, 370882976684, 16412035953630), (17969, 340425338171, 6936497259590),
  (18716, 90215956591, 28537238101960), (15889, 42011285882, 69774347789400),
  (14988, 308544843665, 70485702489480), (14774, 336129613309, 27406604832480),
  (15972, 182864185268, 47733083545520), (13892, 294161501165, 3839366806870)]

/-- `vsop87d_dict.py` 31154-31253. -/
def neptuneR0_2 : List (ℕ × ℕ × ℕ) := [
  (13922, 285574364078, 3787240320690), (15481, 494982954853, 10186893394120),
  (17571, 582317632469, 3568535508300), (15856, 504973561582, 3690919536040),
  (16414, 363049397028, 4524658263860), (17158, 251251149482, 2060692781950),
  (12941, 303041555329, 52257741809380), (15752, 500292909214, 24723934538180),
  (12679, 20331109568, 46053844081980), (16260, 593480347217, 81506334611420),
  (12903, 351141502996, 44631134681820), (13891, 551064697670, 3154075349880),
  (13668, 545576135320, 3935687591520), (13418, 395805150079, 29021955801940),
  (15368, 245783892707, 2682670294300), (14246, 318588280921, 40164971951620),
  (12222, 494370170146, 1401464568050), (15484, 379703715637, 40461866493280),
  (13427, 379527836573, 15104766984290), (14450, 493940408761, 12099138905240),
  (14331, 471117327722, 73879727483860), (11566, 591003539239, 53680451209540),
  (15578, 291836788254, 87583029900100), (13124, 216056013419, 15253214255120),
  (11744, 294770244071, 270831298570), (12793, 197868575679, 137259812370),
  (12969, 535826017, 9741551581630), (13891, 476435441820, 26063243090),
  (13729, 232306473850, 3824491022240), (10714, 618129683877, 11588357962170),
  (11610, 461712859898, 17878939652260), (11257, 79300245838, 4232582133180),
  (14500, 544690193314, 4407092647100), (11534, 526580538005, 16093896579860),
  (13355, 520849186729, 3245577723550), (13658, 215687632802, 47643131808350),
  (13782, 347865209163, 3802116105320), (12714, 209462988855, 2049505323490),
  (13257, 515138524813, 10309277421860), (9715, 74597883480, 91815612033280),
  (10340, 538977407079, 22286032299360), (13357, 589635739027, 74809786996330),
  (12632, 120306997433, 1615350969460), (11437, 158444114292, 49549008271990),
  (11424, 474142930795, 48762577619370), (9098, 519932138822, 11802244363580),
  (9336, 97313630925, 66253120356300), (9827, 448170250645, 50578502345840),
  (8585, 20375451897, 94498282327580), (8875, 553111742265, 1752610781830),
  (9957, 403258125243, 16953698550770), (11506, 311649121817, 1763798240290),
  (9818, 520376439002, 159634729290), (10160, 374441320429, 45761767951300),
  (8661, 31247523804, 144073353842660), (8496, 106445636872, 5577101804070),
  (11162, 192907800408, 56485505531580), (8057, 31116345866, 37741945497430),
  (9851, 423328578127, 41826080359780), (7938, 240417397694, 48837653571910),
  (9894, 63707319139, 18376407950930), (9913, 394049519088, 44126722786230),
  (7867, 387469522964, 49473932319450), (7589, 315909316566, 41677633088950),
  (8496, 538968698704, 10400779795530), (9716, 306038536864, 16656804009110),
  (9377, 56416645296, 67331627139600), (8771, 524534141981, 105789745748090),
  (7990, 155726966638, 5928248017850), (9090, 432953439022, 2974746424980),
  (9667, 589033222679, 35840887444770), (7209, 229464803358, 7918683258240),
  (8062, 44458003524, 1901058052660), (8254, 347304582051, 15615547927360),
  (9804, 606393995615, 78474643289280), (8516, 599060386955, 18079513409270),
  (8090, 138588221442, 165403263386460), (9074, 403971490460, 101705610885740),
  (6908, 141919832926, 17834745353790), (8230, 253750470473, 51838463239980),
  (8594, 529104206063, 45787831194390), (6769, 543380191356, 17198466606250),
  (8571, 35876828441, 63666770846650), (8995, 136992508507, 620977872413240),
  (6641, 292327140872, 4818410980), (9278, 380308677009, 2555821217647960),
  (6567, 401934954352, 11187458460), (6441, 428250687347, 3612729806770),
  (7257, 409776235307, 32686812094890), (8384, 549363770202, 53261172640140),
  (7471, 462144262894, 52698265210890), (7500, 61545750834, 48592885516430),
  (7716, 104880632264, 52523754696970), (8504, 279350586429, 1013998842035200),
  (7466, 507942174095, 15763995198190), (7186, 622833818429, 7722927912210),
  (7784, 189308880453, 98460033162190), (6513, 7498932215, 7988940799800),
  (6077, 296673519667, 3669674703930), (7706, 570632580790, 20910630974400)]

/-- `vsop87d_dict.py` 31254-31353. -/
def neptuneR0_3 : List (ℕ × ℕ × ℕ) := [
  (7265, 494483532589, 13140394986990), (6984, 253239305821, 49718700374930),
  (7824, 231462643851, 51307988101300), (7175, 369203633127, 52401370669230),
  (6855, 14076801572, 28362727588040), (6922, 336515011915, 43829828244570),
  (7349, 350406958122, 50015594916590), (6301, 14776691217, 60887779767700),
  (5892, 424403528888, 466586644600), (7613, 514905171677, 25950888592310),
  (7128, 592696788834, 48295990974770), (6829, 101745137848, 154382631264520),
  (5981, 479954091087, 21543795945210), (5526, 234003154732, 6522037101170),
  (6817, 612162829690, 39505743737720), (5369, 376855960849, 5209954021187280),
  (5776, 561434462641, 98756927703850), (7523, 560432148128, 281092146160520),
  (7329, 376815551582, 151280682400820), (5616, 213872867116, 14563104387150),
  (5258, 30850836910, 3660037881970), (5688, 182274388581, 122743444298860),
  (5658, 235049199704, 562907429250), (6135, 423390561816, 49601134758170),
  (5128, 289050864873, 31368355667090), (6472, 349494191669, 55269738935910),
  (4983, 391958511552, 1013553500222710), (5217, 40052635702, 31931263096340),
  (4952, 142482088612, 4917873590170), (5964, 570758449643, 30979958751760),
  (5091, 600974510144, 140971404978960), (5205, 550271334510, 23890195810360),
  (4800, 113450310670, 13406407874580), (4943, 143051344597, 42240540518200),
  (5604, 205669305961, 20736120460480), (6310, 522966882627, 13974133714810),
  (4772, 306668713747, 46473122651380), (4919, 357280542629, 5217580628314840),
  (4762, 590654311203, 83896928775040), (4848, 77467099227, 169692102940),
  (5694, 77313415569, 70996483432550), (5455, 90289242792, 20884567731310),
  (4901, 379986913631, 1549911838880), (4772, 15755140037, 3950563376150),
  (5673, 268359159067, 112726243007680), (5477, 53123497431, 11387784205160),
  (5077, 159268428609, 154797091422940), (4981, 144584050478, 127202438720),
  (5813, 585024085408, 5725549074900), (5520, 506396698257, 42122974901440),
  (5938, 96886308551, 628010690457480), (5206, 358003819370, 47494684537520),
  (5256, 61005270999, 9597922721780), (5531, 528764137194, 3676043751410),
  (6158, 573176703797, 71144930703380), (5003, 219048397989, 50164042187420),
  (5150, 558407480282, 2604977010593640), (5138, 455234158942, 67091677495100),
  (5609, 437272759780, 5280207262410), (5636, 239183054397, 1021031660079440),
  (4512, 259978208967, 123454798998940), (5412, 458813638089, 17961947792510),
  (4314, 338846714337, 14266209845490), (4708, 523537414423, 362333672240),
  (4471, 394378336812, 1256615169998280), (5296, 112249063176, 13411226285560),
  (4188, 252490407427, 620532530600750), (4645, 190644271528, 1332431667116140),
  (4502, 201956920977, 31516802937920), (5346, 294804816223, 35304043258610),
  (4177, 209489065926, 80375701341940), (5296, 388249567974, 211876386037840),
  (5325, 428221258353, 47791579079180), (5519, 9960891963, 60001914553700),
  (5169, 59948596687, 690109867970), (4179, 14619703083, 664457629047010),
  (4490, 107042724999, 5213915772021889), (3970, 613227798578, 155390880506260),
  (3970, 469887237362, 9178644152380), (4234, 14478458924, 6587476231750),
  (5183, 352837189306, 11020632121940), (5259, 620809827528, 14271028256470),
  (3869, 525125030487, 155805340664680), (4457, 210248126544, 48710451133190),
  (4890, 183606790269, 4651860702580), (3875, 560269278935, 38549620982160),
  (3826, 130946706974, 217661005195840), (4591, 484657580441, 133764076420800),
  (5111, 118808079775, 98163138620530), (4709, 140878215308, 5221393931878620),
  (3891, 543661875415, 15467100656530), (4145, 432505910718, 36351668387840),
  (4441, 350158424570, 18769623277240), (3703, 248768949613, 6788049988760),
  (4094, 142347047260, 31071461125430), (3681, 570552661143, 49166980404140),
  (4787, 365822147476, 58934595228860), (4020, 545643059988, 664160734505350),
  (3656, 57790726599, 49144605487220), (4288, 335265955957, 20321660302060)]

/-- `vsop87d_dict.py` 31354-31453. -/
def neptuneR0_4 : List (ℕ × ℕ × ℕ) := [
  (3843, 461508898119, 102570231267630), (3767, 5292047125, 32027583880990),
  (4632, 82011276589, 326583082813250), (4609, 525443775917, 29615744885260),
  (4555, 530391170376, 2601312154300690), (3556, 480267245336, 22434479570190),
  (4859, 552756242256, 48741332787260), (3626, 144624342082, 7084944530420),
  (4302, 160914544159, 1252950313705330), (3493, 475315651083, 1248988562870720),
  (3722, 27433061822, 94943624140070), (4234, 525112033465, 19428851491140),
  (3451, 297409317928, 49963468430410), (4796, 621059766333, 49181856188770),
  (3639, 125605018211, 260320824283440), (4646, 571392540144, 32176031151820),
  (3702, 208952561657, 49103666459500), (3672, 287489628704, 49749582029000),
  (3965, 105484988240, 7574480641380), (3416, 68584132933, 30508553696180),
  (4513, 438927002490, 42511371816770), (3853, 61321572401, 1252653419163670),
  (3788, 332221995840, 314001275492980), (3781, 558125317044, 165254816115630),
  (3903, 531609723466, 40817831118040), (3945, 360558877407, 158907289528380),
  (4084, 83813879869, 5236012963940), (4084, 350290269471, 2390594163620),
  (3694, 103218855688, 48147543703940), (3636, 531068934607, 14148644228730),
  (3345, 394392179077, 2038992252949249), (4639, 624618220184, 82139499582230),
  (3934, 26992234338, 165551710657290), (4431, 248647437800, 54972844394250),
  (4168, 539993754642, 23650246165860), (4020, 7393243012, 5213618877480229),
  (4055, 134004288978, 105492851206430), (3275, 98533127454, 134475431120880),
  (3213, 297105590703, 2038695358407589), (4428, 6728869735, 49129729702590),
  (4063, 6192838570, 616867674307800), (3804, 534897033476, 52375307426140),
  (3917, 567905809516, 113119458333990), (3833, 87811168267, 5269019803950),
  (4020, 269209723289, 143946151403940), (4373, 186209663434, 7355775828990),
  (3159, 104693380342, 70337255218650), (3116, 520159166840, 44923210812500),
  (3258, 465131076542, 69625900518570), (3427, 27003884843, 238990914739640),
  (4349, 7531141761, 2042657109242200), (3383, 561838426864, 69922795060230),
  (3305, 141666877290, 56214674233010), (3297, 546677712589, 144221801113490),
  (3277, 271815883511, 98014691349700), (3171, 449510885866, 143924906571830),
  (4175, 424327707038, 38161224066830), (3155, 340776789576, 3972938293070),
  (4112, 90309319273, 108769310584050), (3350, 527474671017, 8071948940050),
  (3725, 152448613082, 105810990580200), (3650, 359798316565, 19280404220310),
  (3837, 148519528444, 1009888643929760), (2959, 123012121982, 250011546861580),
  (3330, 612470287875, 1017218356515660), (3361, 431837298696, 49207919431860),
  (3288, 314692435376, 34736317418380), (2992, 501304660316, 17521424391000),
  (3294, 252694043155, 169216566950240), (2984, 181780659890, 17511787569040),
  (3013, 92957285991, 151577576942480), (3863, 546044928570, 33280601178210),
  (3403, 110932483984, 98730864460760), (3312, 67710158807, 97748678462110),
  (3030, 177996261146, 15648928581380738), (3605, 489955108152, 104388281180040),
  (2937, 60469671230, 99022940591440), (3276, 426765608367, 118930140735080),
  (2966, 529808076929, 3198269648350), (2994, 258599359402, 17808682110700),
  (3905, 187748122254, 115828191871380), (3110, 309203517638, 23593301268700),
  (3313, 270308129756, 60447256366190), (3276, 124440460327, 87465464283340),
  (3276, 558544609667, 95092071410900), (3746, 33859914037, 91396333463880),
  (3552, 307180917863, 24038643081190), (2885, 601130634957, 109751496582700),
  (3643, 511977873355, 45220105354160), (2768, 438396269009, 39143410065480),
  (2776, 501821594830, 890683624980), (2990, 562911695857, 14065636088480),
  (2761, 405534163807, 628307584999140), (3226, 476711354367, 624197386893700),
  (3748, 484009347869, 34173409989130), (2752, 453621078796, 620680977871580),
  (3847, 240982343643, 2608641866886590), (2727, 328234198801, 48348117460950),
  (2884, 405452029151, 122384027740), (2702, 372061244391, 94646729598410)]

/-- `vsop87d_dict.py` 31454-31553. -/
def neptuneR0_5 : List (ℕ × ℕ × ℕ) := [
  (2723, 437517047024, 1519030184810), (2847, 522951186538, 66104673085470),
  (2680, 419379121323, 1318456427800), (3269, 43119778520, 49697455542820),
  (3489, 382213189319, 62599451521810), (3757, 388223872147, 49570253104100),
  (2872, 500345974886, 25208652238160), (3742, 203372773652, 859801970910),
  (3172, 111135762382, 26099335863140), (3341, 291360557418, 30423420369990),
  (2915, 263627684599, 668122485339960), (2915, 143773625890, 660495878212400),
  (2629, 209824407450, 271341456405380), (2901, 333924800230, 51546387109300),
  (2803, 123584865903, 664309181776180), (3045, 333515866438, 92107688163960),
  (2699, 542597794650, 92526966733360), (2808, 577870303237, 102421783996800),
  (3028, 375501312393, 51159540830470), (3090, 249453093252, 1466903698630),
  (2913, 483296711477, 51593695184500), (3139, 599134254710, 57074476203920),
  (2752, 308268180744, 85319638175200), (2779, 374527347899, 49400561001160),
  (2643, 199093797444, 47021728845440), (2763, 401095972177, 44897147569410),
  (2643, 524970673655, 24994765836750), (3426, 473955481174, 105099635880120),
  (2573, 201267457287, 151429129671650), (2633, 163640090603, 17071264167530),
  (3034, 448979734509, 56071045373160), (3025, 551446170055, 36945457471160),
  (3095, 401459691667, 161589959822680), (2490, 15301603966, 7818744335344699),
  (2589, 79196093766, 122891891569690), (3143, 533170343283, 154234183993690),
  (3138, 450785484172, 46176228109720), (2812, 374246594120, 200573757010),
  (3062, 488018345098, 22796813242430), (2553, 485437812287, 48884961647110),
  (2971, 127359129352, 53091480537200), (2646, 364828423565, 33577495719870),
  (3329, 271693827722, 17102145821600), (2648, 60243117586, 7058881287330),
  (3061, 505044834864, 37864329525170), (2738, 475405645015, 15126011816400),
  (2728, 589052930055, 21395348674380), (3411, 224137878065, 73445573129830),
  (2623, 54340876464, 158610394986720), (3169, 584871429991, 104951188609290),
  (2430, 234595493263, 45045594840240), (2907, 558085498481, 59757146498220),
  (3300, 94221473935, 5817051448570), (2543, 530426930256, 41948464387520),
  (3175, 232600231924, 33928641933650), (2858, 236621678719, 3250396134530),
  (2712, 579983621237, 158758842257550), (3340, 136950315448, 38427236954420),
  (3301, 583023910521, 5177517430280), (2415, 69446923670, 48955219188670),
  (2736, 574320864965, 116784314626940), (2956, 522962139507, 19985389872910),
  (3262, 1501002027, 154531078535350), (2506, 484043333582, 94349835056750),
  (3240, 246676155925, 101679547642650), (3148, 462079057738, 23353351624200),
  (2327, 410421417326, 7011573212130), (2371, 479963943424, 27114528701800),
  (3006, 366877796077, 147615826107870), (2537, 566681769885, 2114944454070),
  (3006, 93048909480, 2197952594320), (3033, 67157488690, 29248592802040),
  (2344, 183547256266, 49230868898220), (3117, 276268894894, 147318931566210),
  (2323, 288799980853, 53362311835770), (2340, 444862573253, 49080716993140),
  (2511, 99467349084, 26610116806210), (2919, 475889516601, 151132235129990),
  (2493, 610541658597, 122594997028030), (2798, 306162629894, 41974527630610),
  (2691, 320679023131, 46350738623640), (2291, 581534758547, 24697871295090),
  (2319, 605514281470, 52575881183150), (3112, 89712836583, 31490739694830),
  (3085, 584605938859, 119222216865760), (2897, 54747024257, 2035030502114640),
  (3067, 222206306288, 24846318565920), (2252, 87483094907, 6102758531770),
  (2392, 362837597194, 43919779981740), (2817, 273562306571, 1667477455640),
  (2379, 617876088396, 46765198782060), (2598, 482643304253, 38458118608490),
  (2718, 101823841209, 21595922431390), (2998, 109755715300, 196474724511890),
  (2884, 297813466834, 38309671337660), (2231, 448841493844, 414460158420),
  (2203, 223336308907, 48126298871830), (2260, 235404913660, 65961044225620),
  (2491, 170236357070, 44534813897170), (3041, 555577674116, 67480074410430)]

/-- `vsop87d_dict.py` 31554-31560. -/
def neptuneR0_6 : List (ℕ × ℕ × ℕ) := [
  (2289, 118497528002, 155242433235430), (2975, 48272389481, 105248083150950),
  (2339, 75318738767, 47881530816350), (3011, 16359500858, 5428654533240),
  (2820, 618522693724, 55651766803760), (2266, 591286000054, 349021027840),
  (2231, 145038594906, 19650670080260)]

/-- `vsop87d_dict.py` 30953-31561. -/
def neptuneR0 : List (ℕ × ℕ × ℕ) := List.flatten [
  neptuneR0_0, neptuneR0_1, neptuneR0_2, neptuneR0_3, neptuneR0_4, neptuneR0_5, neptuneR0_6]

/-- `vsop87d_dict.py` 31563-31662. -/
def neptuneR1_0 : List (ℕ × ℕ × ℕ) := [
  (236338502, 70498011235, 3813303563780), (13220279, 332015499895, 148447270830),
  (8621863, 621628951630, 3516409022120), (2701740, 188140666779, 3961750834610),
  (2153150, 516873840979, 7626607127560), (2154735, 209431198086, 296894541660),
  (1463924, 118417031047, 3367961751290), (1603165, 0, 0),
  (1135773, 391891199655, 3664856292950), (897650, 524122933533, 38846515523820),
  (789908, 53315484580, 16805251279940), (760030, 2051033644, 18227960680100),
  (607183, 107706500350, 102124889455140), (571622, 340060785432, 48444438245600),
  (560790, 288685815667, 49867147645760), (490190, 346830928696, 13703302416240),
  (264093, 86220057976, 445341812490), (270526, 327355867939, 7181265315070),
  (203524, 241820674409, 3219514480460), (155438, 36537064534, 4110198105440),
  (132766, 360157672619, 956122755560), (93626, 66670888163, 4620979048510),
  (83317, 325992461673, 9889998852460), (72205, 447717435693, 60176425067620),
  (68983, 146326969479, 7478159856730), (86953, 577228651853, 38135160823740),
  (68717, 452563942435, 7032818044240), (64724, 385477388838, 7329712585900),
  (68377, 339509945953, 10846121608020), (53375, 543650770516, 39557870223900),
  (44453, 361409723545, 244768055480), (41243, 473866592865, 807675484730),
  (48331, 198568593981, 17516605980020), (41744, 494257598763, 3101948863700),
  (44102, 141744904844, 155093985964600), (41170, 141999374753, 49007345674850),
  (41099, 486312637841, 49304240216510), (36267, 530764043577, 31219908396260),
  (36284, 38187812797, 7775054398390), (40619, 227237172464, 52969096509460),
  (32360, 591123007786, 593789083320), (31197, 270549944134, 101413534755060),
  (32730, 522147683115, 4105379694460), (36079, 487817494829, 49155792945680),
  (30181, 363273193845, 3071067209630), (29991, 330769367603, 102836244155220),
  (27048, 177647060739, 4472531777680), (27756, 455583165091, 711354700080),
  (27475, 97228280623, 3394024994380), (24944, 310083391185, 14414657116320),
  (25958, 299724758632, 6076695288680), (21369, 471270048898, 27825883401880),
  (21283, 68957829113, 25143213107580), (23727, 512044184469, 17665053250850),
  (21392, 86286397645, 419278569400), (23373, 164955088447, 17368158709190),
  (24163, 356602004577, 14510977900970), (20238, 561479765982, 2411838995730),
  (26958, 414294870704, 45342489381900), (24048, 100718363213, 21329909543800),
  (18322, 198028683488, 7207328558160), (18266, 617260374467, 18939315380180),
  (19201, 465162168927, 10697674337190), (17606, 160307551767, 6225142559510),
  (16545, 169931816587, 35744566660120), (20132, 329520553529, 11439910691340),
  (15425, 438812302799, 2560286266560), (19173, 220014267311, 34321857259960),
  (15077, 366802659382, 52126486180), (14029, 55336333290, 12991947716160),
  (13361, 585751083720, 6884370773410), (15357, 420731277007, 56782400073240),
  (12746, 352815836608, 47733083545520), (11724, 557647263460, 3123193695810),
  (11533, 89138506506, 59465070367540), (10508, 435552732772, 3271640966640),
  (10826, 521826226871, 2682670294300), (10085, 198102855874, 4058071619260),
  (10518, 527281360238, 292076130680), (9207, 50092534158, 6495973858080),
  (9231, 68180977710, 16093896579860), (8735, 580657503476, 659228213900),
  (10114, 451164596694, 2857180808220), (10392, 518877536013, 4258645376270),
  (9873, 376512158080, 18175834193920), (8350, 282449631025, 4324084506850),
  (9838, 149438763600, 4769426319340), (7645, 407503370297, 38994962794650),
  (8004, 278082277326, 50578502345840), (7440, 235731983047, 1104570026390),
  (7342, 162279119952, 13554855145410), (9450, 27241261915, 42659819087600),
  (7192, 82841201068, 91104257333200), (6979, 186753914872, 20618554843720),
  (6874, 83802906828, 8285835341460), (7897, 186554246391, 3865430049960),
  (6729, 398338053636, 1253017297220), (6357, 90093123522, 48736514376280),
  (6720, 133936040700, 22041264243880), (7695, 513312500855, 2390594163620)]

/-- `vsop87d_dict.py` 31663-31762. -/
def neptuneR1_1 : List (ℕ × ℕ × ℕ) := [
  (7059, 599832463494, 63989728631400), (8302, 385960902325, 3761177077600),
  (6412, 241743702679, 105938193018920), (6751, 196860894470, 4524658263860),
  (6431, 407813226506, 3568535508300), (5517, 381325790890, 81506334611420),
  (5562, 41619602150, 56363121503840), (6115, 210934525342, 69774347789400),
  (6216, 479301628209, 14362530630140), (5346, 313071964722, 38698068252990),
  (5245, 606245070403, 17123390653710), (5129, 79394555531, 17909821306330),
  (5168, 473765992885, 52257741809380), (6422, 64684316894, 35033211960040),
  (5006, 237645082899, 7722927912210), (5005, 470632786971, 46053844081980),
  (5167, 520246616570, 44631134681820), (5119, 217338058771, 49473932319450),
  (5025, 421265519856, 53680451209540), (4722, 622814313946, 6373589830340),
  (5125, 538138329172, 17931066138440), (4918, 409031782903, 48837653571910),
  (4652, 510765073368, 27406604832480), (4711, 556542374115, 4232582133180),
  (4459, 130784829830, 6936497259590), (5485, 388088464259, 21840690486870),
  (4416, 305353893868, 2708733537390), (4559, 492224120952, 28537238101960),
  (4393, 418047835584, 541662597140), (4687, 221401153210, 102984691426050),
  (4644, 187902594973, 143361999142580), (5639, 305596737234, 98311585891360),
  (6045, 568817982786, 35181659230870), (4430, 337768805833, 37741945497430),
  (4683, 214346624864, 9741551581630), (5845, 462301099402, 102421783996800),
  (4536, 245860473853, 49601134758170), (4398, 565312496227, 393215326310),
  (4287, 66340266603, 101265087484230), (4086, 14551174994, 38528376150050),
  (4029, 598399329775, 17834745353790), (4276, 368205082970, 34884764689210),
  (5257, 375263242432, 37986713552910), (4012, 42559540783, 10431347953065898),
  (4025, 240645188238, 8434282612290), (3957, 86846121055, 17198466606250),
  (3961, 304953080906, 101731674128830), (5559, 77714806229, 144784708542740),
  (5071, 261075526868, 153671276564440), (4052, 500014006312, 39164654897590),
  (5182, 473444634983, 38283608094570), (3763, 429449373755, 31368355667090),
  (4038, 282857942788, 166114618086540), (4067, 573169928960, 16953698550770),
  (3841, 162580928420, 96320784650), (3901, 270874386576, 1401464568050),
  (3721, 120062375429, 102687796884390), (3911, 301809123569, 10038446123290),
  (3489, 428865448963, 102518104781450), (3714, 505021268365, 29248592802040),
  (3816, 393084933114, 3909624348430), (3988, 282832650224, 13411226285560),
  (3745, 424728135115, 18079513409270), (3836, 102685786071, 101827994913480),
  (3941, 521895739331, 18376407950930), (4669, 438080962573, 106649547719000),
  (3780, 603723468132, 102273336725970), (3647, 398130320367, 60887779767700),
  (3456, 554052355058, 84608283475120), (4047, 371041480907, 101806750081370),
  (3865, 476002199091, 16656804009110), (3629, 329053233846, 44779581952650),
  (3564, 436703678321, 39706317494730), (3304, 149289552229, 150569327700740),
  (3976, 242476188945, 10601353552540), (4217, 421677652639, 105226838318840),
  (3294, 42088065654, 2263391724900), (3615, 368096122231, 49452687487340),
  (3230, 510786091356, 6915252427480), (3280, 362226152032, 53117543780290),
  (3337, 272502876320, 48147543703940), (3187, 8677634706, 39951085550210),
  (3389, 179454271219, 151992037100900), (3179, 340418030121, 42362924545940),
  (3154, 369356460843, 47021728845440), (3706, 279048710497, 46202291352810),
  (3136, 438015969606, 38549620982160), (3122, 48346644637, 7918683258240),
  (3392, 48037804731, 52109294538550), (3465, 93152295589, 218372359895920),
  (3735, 98809808606, 48741332787260), (3998, 338773325131, 628307584999140),
  (2998, 261728063127, 48762577619370), (3295, 253821501556, 466586644600),
  (2964, 366274645375, 49549008271990), (3901, 165463523144, 21033015002140),
  (2950, 199904237956, 87290953769420), (2948, 290769224206, 39143410065480),
  (2971, 31626092637, 510780943070), (3085, 95725590904, 10994568878850)]

/-- `vsop87d_dict.py` 31763-31812. -/
def neptuneR1_2 : List (ℕ × ℕ × ℕ) := [
  (2995, 334433305798, 39409422953070), (3126, 589472116854, 10549227066360),
  (3904, 301022809543, 55651766803760), (3388, 624936444215, 53532003938710),
  (2930, 615005257333, 16412035953630), (3267, 419718045293, 51838463239980),
  (3946, 288842759670, 15126011816400), (3076, 604134449219, 14214083359310),
  (2823, 60712626756, 21478356814630), (2917, 274502617182, 13851749687070),
  (3347, 609373507569, 624642728706190), (3659, 512211619716, 7923501669220),
  (3010, 24656411754, 9178644152380), (2861, 617465663902, 42240540518200),
  (2989, 231620917965, 48592885516430), (3088, 229186342974, 11020632121940),
  (3030, 369866149100, 53261172640140), (3020, 236422658177, 29021955801940),
  (3170, 123078934548, 1017663698328150), (2652, 335836234807, 14807872442630),
  (2673, 603366372927, 19650670080260), (2630, 46957619348, 197042450352120),
  (2599, 486022081674, 43919779981740), (2878, 261946597178, 48858898404020),
  (2720, 171836225398, 36455921360200), (3333, 325126857354, 3005628079050),
  (3053, 249346960035, 624345834164530), (3062, 623776299963, 41948464387520),
  (2786, 83078219939, 49718700374930), (2834, 352926079424, 45787831194390),
  (2932, 180245810977, 50015594916590), (3030, 510152500393, 36797010200330),
  (2956, 576230870725, 98608480433020), (3116, 220042242739, 49570253104100),
  (2554, 65945973992, 6735923502580), (2901, 391891656185, 1017366803786490),
  (2840, 134453183591, 48295990974770), (2458, 120012815574, 48911024890200),
  (2556, 386921927085, 48710451133190), (2614, 151881085312, 46350738623640),
  (2386, 458400538443, 61599134467780), (2438, 519827220476, 50111915701240),
  (2537, 164802783144, 51960847267720), (2444, 387859489652, 18524855221760),
  (2795, 404265752580, 25505546779820), (2895, 326202698812, 164691908686380),
  (2225, 575197574692, 60595703637020), (2324, 399503920129, 48126298871830),
  (2962, 174151265966, 208063082474060), (2621, 174442251671, 3521227433100)]

/-- `vsop87d_dict.py` 31562-31813. -/
def neptuneR1 : List (ℕ × ℕ × ℕ) := List.flatten [
  neptuneR1_0, neptuneR1_1, neptuneR1_2]

/-- `vsop87d_dict.py` 31815-31886. -/
def neptuneR2_0 : List (ℕ × ℕ × ℕ) := [
  (4247412, 589910679117, 3813303563780), (217570, 34581829080, 148447270830),
  (163025, 223872947130, 16805251279940), (156285, 459414467342, 18227960680100),
  (117940, 510295026024, 48444438245600), (112429, 119000583596, 49867147645760),
  (127141, 284786298079, 3516409022120), (99467, 341578558739, 17516605980020),
  (64814, 346214064840, 38846515523820), (77286, 1659281785, 49155792945680),
  (49509, 406995509133, 7626607127560), (39330, 609521855958, 102124889455140),
  (36450, 517130059988, 13703302416240), (37080, 597288967681, 296894541660),
  (30484, 358259801313, 3367961751290), (21099, 76843555176, 3664856292950),
  (13886, 359248623971, 39557870223900), (13117, 509263515697, 9889998852460),
  (11379, 118060018898, 38135160823740), (9132, 234787658568, 60176425067620),
  (8527, 525134685897, 244768055480), (8136, 496270726986, 445341812490),
  (7417, 446775409796, 18939315380180), (7225, 192287508629, 956122755560),
  (7289, 165519525780, 102836244155220), (8076, 584268048311, 22041264243880),
  (9654, 0, 0), (6554, 69397520733, 14414657116320),
  (7782, 114341656235, 105938193018920), (5665, 625378258571, 7478159856730),
  (5628, 523383764266, 4620979048510), (5523, 459041448911, 101413534755060),
  (5177, 523116646157, 47733083545520), (5503, 349522319102, 18376407950930),
  (4878, 352934357721, 3961750834610), (4787, 208260524745, 4110198105440),
  (5055, 19949888617, 16656804009110), (4751, 118054948270, 16953698550770),
  (4747, 150608965076, 7329712585900), (6113, 618326155595, 7181265315070),
  (4606, 391970908886, 58753715667460), (5756, 223667359233, 17665053250850),
  (4536, 284337336954, 711354700080), (4338, 51553847388, 44631134681820),
  (3891, 26338839265, 155093985964600), (4465, 301487041298, 12991947716160),
  (3727, 237977930658, 16093896579860), (3840, 379290381880, 11143016149680),
  (4142, 170293820961, 98311585891360), (3296, 107748822909, 50578502345840),
  (4008, 30663868827, 49473932319450), (3974, 597351783840, 48837653571910),
  (3925, 485736421123, 6076695288680), (2966, 201608546009, 82217689311500),
  (3972, 107780371834, 37423806123660), (3843, 523002047199, 35033211960040),
  (2848, 617799253802, 70485702489480), (3527, 79317138165, 27406604832480),
  (2828, 132275775835, 38698068252990), (2773, 537132330836, 25143213107580),
  (3113, 512622288690, 42659819087600), (3344, 561433537548, 112434166877000),
  (2597, 67759426519, 31219908396260), (2581, 355847612121, 56782400073240),
  (2578, 145603792456, 103547598855300), (2541, 519427579702, 122743444298860),
  (2510, 412148891512, 17123390653710), (2511, 271606957319, 17909821306330),
  (2342, 96469916587, 101976442184310), (2500, 70282276030, 70777778620160),
  (2480, 459623030219, 69355069220000), (2253, 74334306011, 97600231191280)]

/-- `vsop87d_dict.py` 31814-31887. -/
def neptuneR2 : List (ℕ × ℕ × ℕ) := neptuneR2_0

/-- `vsop87d_dict.py` 31889-31910. -/
def neptuneR3_0 : List (ℕ × ℕ × ℕ) := [
  (166297, 455243893489, 3813303563780), (22380, 394830879358, 16805251279940),
  (21348, 286296778794, 18227960680100), (16233, 54226725872, 48444438245600),
  (15623, 575702251906, 49867147645760), (11867, 440280192710, 148447270830),
  (6448, 519003066847, 3101948863700), (3655, 591335292846, 100702180054980),
  (3681, 162865545676, 38846515523820), (3198, 70197118575, 155805340664680),
  (3243, 188035665980, 52257741809380), (3269, 294301808574, 7626607127560),
  (2688, 187062743473, 40269224923980), (3246, 79381356193, 53680451209540),
  (2650, 576858449026, 34321857259960), (2644, 464542905401, 50015594916590),
  (2541, 479217120822, 48295990974770), (2523, 172869889780, 39557870223900),
  (2690, 221096415618, 44631134681820), (2355, 577381398401, 48592885516430),
  (2874, 619643340540, 81506334611420), (2278, 366579603119, 49718700374930)]

/-- `vsop87d_dict.py` 31888-31911. -/
def neptuneR3 : List (ℕ × ℕ × ℕ) := neptuneR3_0

/-- `vsop87d_dict.py` 31913-31919. -/
def neptuneR4_0 : List (ℕ × ℕ × ℕ) := [
  (4227, 240375758563, 47733083545520), (4333, 10459484545, 39557870223900),
  (3545, 478431259422, 102836244155220), (3154, 388192942366, 50578502345840),
  (3016, 103609346831, 18939315380180), (2294, 110879658603, 18227960680100),
  (2295, 567776133184, 16805251279940)]

/-- `vsop87d_dict.py` 31912-31920. -/
def neptuneR4 : List (ℕ × ℕ × ℕ) := neptuneR4_0

/-- `vsop87d_dict.py` 30952-31921 `_planets[("Neptune", "R")]`. -/
def neptuneR : List (List (ℕ × ℕ × ℕ)) :=
  [neptuneR0, neptuneR1, neptuneR2, neptuneR3, neptuneR4]

end Verif.Data

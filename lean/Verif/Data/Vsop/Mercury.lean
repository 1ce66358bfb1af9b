import Mathlib.Data.Nat.Notation

/-! Generated by tools/gen_vsop.py from vsop87d_dict.py; do not edit.
Each row is amplitude, phase and frequency in units of 1e-11. -/

namespace Verif.Data

/-- `vsop87d_dict.py` 27-126. -/
def mercuryL0_0 : List (ℕ × ℕ × ℕ) := [
  (440250710144, 0, 0), (40989414976, 148302034194, 2608790314157420),
  (5046294199, 447785489540, 5217580628314840), (855346843, 116520322351, 7826370942472259),
  (165590362, 411969163181, 10435161256629678), (34561897, 77930765817, 13043951570787099),
  (7583476, 371348400510, 15652741884944518), (3559740, 151202669419, 110937855209340),
  (1726012, 35832239908, 18261532199101939), (1803463, 410333178410, 566133204915220),
  (1364682, 459918318745, 2719728169366760), (1589923, 299510417815, 2502852121138500),
  (1017332, 88031439040, 3174923519072640), (714182, 154144865265, 2497852458948080),
  (643759, 530266110787, 2153594964451540), (404200, 328228847025, 20870322513259358),
  (352441, 524156297101, 2042657109242200), (343313, 576531885335, 95559974160860),
  (339214, 586327765000, 2555821217647960), (451137, 604989275289, 5111642435295920),
  (325335, 133674334780, 5328518483524180), (259587, 98732428184, 455195349705880),
  (345212, 279211901539, 1587461759536320), (272947, 249451163975, 52969096509460),
  (234830, 26672118900, 1132266409830440), (238793, 11343953378, 105938193018920),
  (264336, 391705094013, 5783713833230060), (216645, 65987207348, 1352175144159140),
  (183359, 262878670784, 2704350288318280), (175965, 453636829858, 5106642773105500),
  (181629, 243413502466, 2566130495069820), (208995, 209178234008, 4762385278608960),
  (172643, 245200164173, 2449883024629040), (142316, 336003948842, 3741056723987860),
  (137942, 29098447849, 1021328554621100), (118233, 278149786369, 7720432749453338),
  (96860, 620398202740, 23479112827416777), (125219, 372079804425, 3960965458316560),
  (86819, 264219349385, 5164611531805379), (86723, 195953042650, 4651447423399620),
  (88329, 541338795963, 2661759410666880), (106422, 420572116254, 1980482729158280),
  (89987, 585243631094, 4196252073693740), (84971, 433100364958, 7937308797681599),
  (69247, 419446437496, 1966976089979), (63463, 314700877722, 723867559160000),
  (68493, 63424819267, 8392504147387479), (69729, 357201709671, 2513230339996560),
  (59481, 274692752000, 1698399614745660), (64830, 4762925810, 3332657873317420),
  (55376, 405312663019, 3063985663863300), (54442, 314331542453, 2714728507176339),
  (47560, 549722099211, 388133535800), (49567, 398985863874, 677071060124560),
  (56531, 511920557675, 7371175592766379), (41764, 564185159566, 5313140602475700),
  (51458, 547786463494, 5058673338786459), (44744, 122366857463, 7715433087262919),
  (41882, 519309298528, 628307584999140), (38045, 243117327523, 1256615169998280),
  (35627, 81390126585, 3285861374281979), (48007, 549260554912, 5174920809227239),
  (35392, 336964859355, 3630118868778519), (33951, 278618091049, 1476523904326980),
  (30560, 584045074182, 4307189928903080), (35964, 142380838630, 221875710418680),
  (34044, 47470299167, 6569755772473979), (30800, 577017310191, 10329223063610759),
  (28496, 65048992658, 42659819087600), (26215, 524158618719, 2264532819660879),
  (26253, 64807043102, 158907289528380), (29538, 69771244088, 21329909543800),
  (27504, 98010127839, 4589273043315699), (22347, 565335125838, 7773401845962799),
  (22047, 493398225193, 7260237737557039), (22275, 217909842576, 5270549724824299),
  (24252, 439994170609, 711354700080), (26751, 106145361792, 344257494496540),
  (23656, 284168536986, 26087903141574195), (22908, 258462026514, 6805042387851159),
  (27086, 8501738669, 6349847038145279), (22247, 322418265191, 2544800585526019),
  (17803, 361202297483, 11001294461544899), (22407, 102520094825, 10546099111839019),
  (17576, 471742326981, 2587460404613620), (18586, 452709871258, 2830666024576099),
  (14176, 612394176563, 5323518821333759), (14186, 514246797066, 2606823338067440),
  (17244, 28394746813, 5122020654153979), (17176, 326084092971, 15377881048480),
  (14938, 183542009339, 9979965906923798), (13387, 76564655407, 5672775978020720),
  (13978, 230193139916, 7667463652943878), (14428, 96646356501, 2610757290247399),
  (11990, 620492907598, 1884922754997420), (14381, 190956715654, 2396913928119580),
  (11233, 204817126136, 3237097899156560), (13392, 451750784605, 2608078959457339),
  (11632, 238496860260, 7921930916633119), (12412, 222280944169, 7783711123384659)]

/-- `vsop87d_dict.py` 127-226. -/
def mercuryL0_1 : List (ℕ × ℕ × ℕ) := [
  (9950, 204594448880, 4873323133818299), (9803, 226706433546, 2609178447693220),
  (9362, 544291958209, 3865405484155699), (9747, 383976857418, 2608402180621620),
  (9264, 402987000812, 46796499035440), (8961, 11062526114, 6238909182935939),
  (11543, 417789167759, 10324223401420339), (11146, 378292300417, 2630120223701220),
  (9677, 298527809776, 5941448187474840), (8977, 347888073089, 9178546086631398),
  (9664, 577941968495, 2593833994443960), (8855, 284672636028, 2503563475838580),
  (8181, 577857196635, 4085314218484400), (8033, 245692824195, 12938013377768178),
  (8343, 534499871294, 1931719254032860), (7425, 471160330390, 662855890001),
  (9001, 623396256413, 2502140766438420), (8126, 112294634635, 2609501668857500),
  (6568, 366248946629, 2651450133245020), (7038, 399035923761, 7198063357473118),
  (6956, 162821260299, 2386914603738740), (7595, 18334396433, 1243204265039780),
  (6061, 367044794062, 2767697603685800), (5896, 557171141866, 9413832702008578),
  (5716, 518204203484, 7879340038981718), (5855, 214311779301, 2076042703319140),
  (5681, 160727624525, 9869028051714458), (5788, 235467492390, 10382192160120218),
  (5121, 377832929907, 5894651688439399), (5873, 576210244486, 28696693455731616),
  (5858, 612538452806, 2601163707029860), (5215, 329186833997, 3851994579197200),
  (6000, 57044073, 5153590899683439), (4647, 29020584575, 13610084775702319),
  (5787, 444783057272, 1940667828817460), (5908, 412195491631, 2953047808653960),
  (5918, 398930701135, 13154889425996438), (5728, 302314979708, 8958637352302698),
  (3928, 481437933690, 12588756221081219), (3929, 248449041501, 6915980243060499),
  (3681, 280180999964, 7932309135491178), (4498, 150325539137, 5196250718771040),
  (3687, 533717753698, 10276253967101299), (3497, 185400531491, 5215613652224860),
  (3867, 125354714671, 5439456338733519), (4459, 488911997687, 5005704242277000),
  (3396, 373870967348, 8281566292178139), (3525, 607665337319, 2593412433108940),
  (3492, 128206984744, 5216869273614759), (3411, 613976263434, 63989728631400),
  (4395, 325475914760, 7730810968311399), (2990, 527323635392, 4684833017476560),
  (3218, 520938751579, 10392501437542078), (2899, 508451495112, 5845888213313979),
  (3708, 2713701028, 2624168195205900), (2991, 292278339368, 4493713069154840),
  (3177, 5753403864, 2274729071487440), (3163, 538713552769, 10530721230790539),
  (3556, 396231142071, 5219547604404819), (2787, 54704419913, 5238910537858640),
  (2458, 114904830408, 233319639287200), (2492, 524922078791, 2566841849769900),
  (2409, 214208355028, 6474195798313119), (2509, 61934630416, 8503442002596818),
  (2416, 526204437192, 5217968761850640), (2296, 309900451546, 8847699497093359),
  (2357, 17742385045, 11787336400788819), (3012, 83689268367, 12933013715577759),
  (2421, 395913346049, 4999662190420), (2197, 256129546358, 334061242669980),
  (2402, 55121112633, 5217192494779040), (2106, 541271503337, 15546803691925599),
  (2566, 300606194044, 5110931080595839), (2392, 17898534184, 10309277421860),
  (2737, 108192567668, 63278373931320), (2523, 590356438675, 5112353789995999),
  (2098, 247132069140, 6694104532641819), (2003, 375422326828, 1606606586147480),
  (2188, 118654376903, 211876386037840), (2593, 255122032446, 2565419140369739),
  (2559, 118101453315, 4549458142974879), (1918, 79899605678, 2655586813192860),
  (1819, 69178943674, 9806853671630539), (2471, 255057179214, 5202624308601380),
  (1704, 36723577740, 5260240447402440), (2129, 266251948472, 1809337469954999),
  (1715, 462177464710, 4995704917896160), (1916, 583726462050, 8550238501632259),
  (1976, 357365896777, 2439573747207180), (1581, 36987184257, 5376487917843220),
  (1589, 133531241950, 11443928868521), (2042, 205385564074, 4540509568190280),
  (1539, 225468618977, 12022623016165999), (1525, 148231179113, 2609453170047421),
  (2055, 416315644175, 5218291983014920), (1829, 38846130335, 52257741809380),
  (2105, 404128506778, 2523470675982219), (1480, 187644604156, 10488130353139139),
  (1460, 101790185557, 2545511940226100), (1453, 34125222190, 105226838318840)]

/-- `vsop87d_dict.py` 227-326. -/
def mercuryL0_2 : List (ℕ × ℕ × ℕ) := [
  (1449, 339742463494, 2450594379329119), (1480, 455094492082, 12477818365871879),
  (1481, 362242942443, 14956319713460), (1516, 532327802440, 12990982474277639),
  (1594, 300887674765, 7762381213840858), (1927, 390378108197, 7478159856730),
  (1373, 432419381493, 8048246652890938), (1419, 390109225299, 788008915333899),
  (1525, 462451312025, 2608127458267419), (1567, 65981123945, 15763679740153858),
  (1725, 440112128069, 31639186965660), (1263, 496320745251, 7482113447975718),
  (1472, 556006656586, 9524770557217918), (1315, 183254115004, 7614494556434419),
  (1439, 83286166370, 5561838122811380), (1355, 315837061982, 106649547719000),
  (1224, 324032680768, 16218875089859738), (1390, 513745290383, 41948464387520),
  (1310, 528250636680, 2561993815121980), (1477, 240227455027, 31305483769889036),
  (1252, 565227031449, 2601312154300690), (1143, 38707356937, 4215396900304900),
  (1082, 256550728704, 2619099591579279), (1493, 289973504649, 5209954021187280),
  (1468, 571507791250, 2449171669928959), (1034, 149544294440, 15197546535238638),
  (1314, 591505351846, 11567427666460119), (1065, 361081835123, 20618554843720),
  (1053, 517996026320, 2375470674870219), (964, 205264296353, 12885044281258718),
  (1032, 339114761061, 2555109862947879), (1065, 338225524038, 2586355834587229),
  (1153, 576498787983, 4418127784112419), (960, 574774250678, 10541099449648599),
  (1137, 620919445956, 10339601282468818), (914, 428855434634, 7825659587772179),
  (917, 327543718918, 7626607127560), (892, 482397571946, 7824403966382280),
  (976, 486442946387, 2513161398560359), (1086, 73424633411, 3396799229491319),
  (1162, 452128441898, 7805041032928458), (868, 278848256837, 5202202747266360),
  (943, 409736853870, 2672068688088739), (973, 454018615747, 2492542843716640),
  (845, 505414707498, 2597769682035479), (841, 189412486884, 13001291751699499),
  (920, 302504494542, 5232958509363319), (814, 315330668609, 4883519385644859),
  (876, 41318857467, 10890356606335558), (818, 161477924287, 4056525432477420),
  (1074, 137296024678, 2343944831610119), (812, 282156935191, 2598481036735560),
  (775, 286911510061, 2672780042788820), (755, 544067645183, 2460903656750980),
  (921, 472557901430, 1447735118320000), (914, 470826349904, 668122485339960),
  (749, 180279541026, 8454678527471398), (907, 64974692551, 7828337918562238),
  (854, 505058435764, 30755762096960), (766, 589942349817, 7102503383312259),
  (713, 355192633098, 7847700852016058), (718, 185061030321, 10090903762133139),
  (858, 543959629234, 53680451209540), (794, 377076518156, 15541804029735178),
  (848, 208790526575, 13139511544947959), (622, 314583461131, 14396126714946238),
  (623, 458424507963, 910390699411760), (623, 510535773746, 9082986112470538),
  (706, 419554833142, 7158248457132299), (738, 15942404038, 2471212934172840),
  (621, 132834420218, 332813565628019), (714, 188052234658, 219908734328700),
  (678, 601392909264, 7719721394753258), (650, 551227348491, 2942851556827400),
  (658, 203299256393, 5175632163927320), (593, 606807779961, 11456489811250778),
  (666, 70706334861, 2616268474014150), (597, 515771478155, 33385594076940),
  (616, 194902289932, 7826759076008058), (774, 284206828086, 1365586049117640),
  (698, 560747842278, 5174209454527159), (557, 207529602574, 18155594006083018),
  (547, 317747066781, 9069575207512038), (541, 420816350943, 2842109953444620),
  (639, 555908134374, 7811414622758799), (529, 360209913515, 191119948321720),
  (620, 487816246784, 2577151127191760), (569, 356250435364, 11112232316754239),
  (510, 420331823730, 2820666700195260), (539, 542639519551, 9302894846799239),
  (659, 345407389663, 2661048055966799), (613, 352133069078, 7825982808936459),
  (594, 116299449628, 2640429501123080), (576, 81617266730, 5132260990139639),
  (497, 537540191935, 2603790651966999), (663, 263246066036, 7721144104153418),
  (487, 196691664683, 2650738778544939), (474, 365243004234, 12415643985787958),
  (550, 581040334783, 173112235293260), (472, 379351701945, 5264377127350280)]

/-- `vsop87d_dict.py` 327-426. -/
def mercuryL0_3 : List (ℕ × ℕ × ℕ) := [
  (467, 450175920356, 11020632121940), (593, 304818872924, 1272545343477500),
  (552, 68733268561, 2613789976347840), (525, 87988157932, 7827082297172339),
  (600, 33902061394, 5048364061364600), (443, 333385484899, 7869030761559859),
  (441, 131034191525, 7604495232053580), (588, 237074288411, 12133560871375339),
  (427, 14810668871, 5059384693486539), (413, 333346664325, 7985278232000639),
  (403, 520705536949, 14631413330323418), (524, 502853960393, 7149299882347698),
  (418, 599113644745, 10371171527998279), (388, 444142037364, 2941603879785439),
  (390, 402400157761, 5154302254383520), (442, 237158178341, 11159028815789679),
  (375, 447565026408, 5218243484204840), (387, 483640155029, 13096920667296558),
  (390, 120415517897, 15086608680029298), (416, 360399872842, 18372470054311278),
  (407, 52938530500, 43371173787680), (439, 245401498182, 5057961984086379),
  (412, 50186886239, 2799910262479140), (391, 68517124695, 13410904958500),
  (398, 199594942261, 15599772788435058), (346, 340308148193, 2714017152476259),
  (422, 583293462268, 3881335657634920), (342, 83679406818, 2576439772491679),
  (368, 380659045949, 8170628436968799), (355, 199286044781, 108970879119360),
  (462, 333451630664, 2544089230825939), (330, 37013669364, 2623746633870879),
  (330, 619331560111, 18827665404017158), (407, 217141736652, 64141356173899),
  (321, 502532002650, 10223284870591838), (330, 553086966080, 1002183728009940),
  (336, 249163362426, 2534491308104160), (381, 590928705861, 7818744335344699),
  (316, 242532836233, 5210102468458109), (331, 438897286971, 2620234243025941),
  (401, 199380933624, 4984260989027639), (422, 46556669940, 148447270830),
  (310, 618819197073, 2715439861876420), (302, 468575942793, 2556532572348040),
  (296, 170818196194, 2597346385288896), (375, 531085497894, 33914274084046457),
  (329, 532609571265, 85319638175200), (299, 581101886868, 169216566950240),
  (378, 133745475273, 5216917772424839), (293, 443993559835, 57968758699880),
  (276, 445147472194, 17806336849396059), (283, 619860164015, 2588171759313700),
  (315, 195956643364, 5170784129279399), (337, 421457120705, 3428217847478280),
  (334, 300354887525, 2386604650697719), (268, 134437493520, 3519181013569180),
  (306, 594445231410, 6460784893354619), (283, 96234220412, 163906951718800),
  (287, 128099267608, 5101333157874059), (269, 55818949975, 346224470586520),
  (274, 561047457506, 5227889905736699), (352, 49071599781, 2629408869001139),
  (358, 123360990528, 122381784077861), (343, 429256939583, 4952735145767539),
  (255, 503019684368, 15493834595416138), (297, 287172991159, 12948391596626239),
  (252, 9044630682, 1354142120249119), (301, 122789205624, 10413831347085879),
  (274, 367792692372, 6824187214462319), (321, 249914111769, 14176217980617538),
  (290, 102241335068, 819427533320860), (240, 99284920524, 10434449901929598),
  (278, 53151576617, 94917560896980), (249, 239787134441, 13149889763806018),
  (274, 209560778105, 2662470765366959), (240, 314668052954, 2397625282819660),
  (239, 85198559240, 5280859002246159), (266, 18324709351, 216876048228260),
  (226, 485701184113, 15610082065856918), (228, 219799888298, 5069693970908399),
  (231, 149522976308, 10433194280539699), (245, 468642861263, 532747610838280),
  (281, 163579312063, 5121951712717779), (219, 575893553103, 7810993061423779),
  (233, 599853185125, 7841748823520739), (227, 602396548637, 158195934828300),
  (218, 542819370607, 1820781398823521), (220, 372017611382, 799452844202420),
  (271, 20833686608, 5163900177105299), (244, 233639123341, 2513872753260440),
  (254, 546143104532, 62174380083920), (209, 1908528531, 2616416921284980),
  (208, 618336687237, 7492309699802278), (274, 15423898790, 5195146148744649),
  (212, 195557421945, 73587651353180), (236, 428368070837, 2407934560241519),
  (206, 586972946528, 5207271350892979), (201, 161226877070, 2524182030682300),
  (235, 360446251088, 10437128232719658), (229, 366187363672, 159618644228460)]

/-- `vsop87d_dict.py` 427-526. -/
def mercuryL0_4 : List (ℕ × ℕ × ℕ) := [
  (198, 585298126352, 5281570356946240), (220, 139541547612, 3276912799497380),
  (229, 336265291664, 13499146920492979), (192, 103510456065, 2586749049913539),
  (199, 478126289270, 11063468841628819), (191, 424110997660, 1422709400160),
  (210, 544710702022, 14742351185532758), (229, 76266531820, 22041264243880),
  (185, 24752751791, 10456491166173479), (211, 181826670820, 5206559996192899),
  (182, 231946183497, 938484100807520), (207, 77329376239, 91793028598180),
  (190, 91354241432, 9767038771289718), (184, 332299343484, 3032686100440),
  (209, 41150840785, 18150594343892598), (225, 506158596891, 15748301859105378),
  (184, 271529935065, 10328511708910679), (191, 196528922573, 31418617986960),
  (182, 430249539122, 188490116341740), (192, 482097876700, 12699694076290558),
  (188, 98150502881, 2604977010593640), (184, 67028697590, 10657036967048359),
  (167, 571084692524, 9635708412427259), (184, 233710037381, 7782999768684579),
  (201, 257648669602, 9711293697469679), (176, 320466399658, 3962932434406539),
  (169, 230516098722, 10196251826560), (163, 611134623776, 17004917029103659),
  (195, 518276528052, 9902413645791399), (165, 600583599609, 22434479570190),
  (167, 375645242744, 5225058788171570), (172, 428474997892, 2578034552060460),
  (216, 320425967752, 5080003248330259), (157, 161810971101, 2481522211594700),
  (163, 177694235279, 11691776426627958), (156, 194644057334, 2642175908234360),
  (164, 381487619480, 7741051304297059), (158, 495279229085, 3547274414964940),
  (150, 503580916221, 20764384320240439), (208, 259008696784, 2781902549450680),
  (180, 562518388437, 10329934418310839), (165, 225945126594, 10420204936916218),
  (148, 394625893131, 2460192302050899), (149, 449766341520, 95628915597060),
  (157, 162995234425, 5185941441349179), (166, 21228205353, 5269838370124219),
  (151, 275061488385, 14065280125408198), (161, 172952408524, 264845482547300),
  (169, 261298183547, 2608641866886590), (170, 78905798191, 7293623331633979),
  (177, 506009562295, 7784422478084739), (142, 261984020842, 2429264469785319),
  (150, 493124201089, 2828699048486120), (175, 579468120941, 3974376363275060),
  (163, 337032055762, 7657154375522019), (150, 179967850988, 393215326310),
  (159, 490360163470, 10435549390165479), (149, 420242344258, 5249219815280499),
  (146, 131203861446, 2619810946279360), (162, 225640253895, 5551641870984820),
  (178, 181205070225, 2639546076254379), (132, 90685777764, 5429457014352679),
  (142, 170641940798, 9274106060792258), (138, 64298043300, 8614379857806159),
  (125, 32592941945, 15024434299945379), (131, 91963253985, 5450900267602040),
  (144, 417124383409, 2482233566294780), (135, 386821614788, 10435872611329758),
  (159, 472016316702, 408398850670440), (122, 208133407370, 5212580966124419),
  (141, 208765477131, 11911685160956658), (122, 501211051965, 5259529092702359),
  (149, 38744219837, 48763475125420), (121, 330215904574, 126315736257819),
  (138, 104671626049, 108308023229360), (157, 517018916622, 2396202573419499),
  (163, 326593103179, 2608938761428249), (130, 56779128434, 2593685547173129),
  (160, 19385295261, 10434773123093879), (116, 269818513122, 12979961842155698),
  (113, 426323214388, 10213285546210999), (115, 135196569742, 7561525459924959),
  (135, 170032124143, 9758090196505119), (121, 20372434486, 3813303563780),
  (118, 49434134122, 7873167441507700), (119, 554562725890, 7666752298243798),
  (133, 467446352847, 201498167179780), (126, 624694138116, 63699627202420),
  (120, 320442216756, 7668175007643958), (125, 365255045892, 2955014784743939),
  (118, 526052652437, 2672931670331319), (113, 626688921593, 10477821075717278),
  (134, 156524046563, 2593982441714789), (114, 352566774494, 2435678078864160),
  (120, 172596426067, 2275976748529401), (145, 361638421570, 5222580290505260),
  (107, 572285490406, 2417670365835700), (112, 28882268029, 20981260368468695),
  (121, 11234419157, 5152879544983359), (120, 417769370414, 2575404720080480)]

/-- `vsop87d_dict.py` 527-626. -/
def mercuryL0_5 : List (ℕ × ℕ × ℕ) := [
  (105, 188137155058, 17240203644480839), (106, 627133163237, 10594068546158058),
  (104, 385061395100, 147886657406440), (108, 296292200098, 137577379984580),
  (132, 460210460022, 1161055195837420), (114, 520612177122, 13767819129947099),
  (107, 557717441, 1336244970679920), (101, 73934409276, 7763092568540938),
  (97, 119155686364, 7827033798362259), (100, 25974575144, 16040736938481),
  (105, 3739853961, 18007713028460), (114, 513609864972, 113567687189320),
  (101, 414323258440, 17695398994186718), (95, 49488385937, 10779418751126219),
  (95, 154869651436, 2597350403466079), (100, 151228088427, 15705710981453978),
  (106, 457237246234, 2607367604757259), (94, 353697338405, 2652161487945100),
  (91, 313017596287, 6490125971792339), (88, 520234335205, 148529070670320),
  (116, 596693811684, 2418243837663380), (99, 212002549240, 6665315746634839),
  (105, 404764282865, 2772697265876220), (94, 262198655221, 10427534649502118),
  (106, 206629215696, 12511203959948818), (88, 388240703310, 5185230086649099),
  (85, 283285123847, 21436455718174578), (83, 544599307753, 7818892782615528),
  (83, 335497157412, 5232536948028299), (104, 495116515346, 18208563102592478),
  (110, 604814955763, 4995394964855139), (93, 100014028766, 974532055585660),
  (81, 403821735964, 13265827281205778), (84, 11234538521, 5322807466633679),
  (94, 555962830464, 5143281622261579), (80, 613595673095, 13721022630911658),
  (80, 272256616799, 2504274830538660), (80, 429137248560, 7710123472031478),
  (85, 97100574775, 2578877674730500), (82, 189501710792, 12832075184749259),
  (77, 116185579398, 20415127163553478), (92, 444154858356, 2609183529483729),
  (78, 373813140716, 2622201219115920), (76, 428770981047, 8645798475793119),
  (76, 288868549481, 5324230176033840), (104, 432540467122, 2388881579828719),
  (94, 432453647728, 7825708086582259), (74, 496325610801, 2682377965510599),
  (77, 107428657729, 5016724874398939), (75, 256662960973, 1920275325164339),
  (99, 600141798836, 1995860610206760), (87, 355579419373, 5238199183158559),
  (78, 100822618263, 2535202662804239), (88, 352269656514, 6005589543648739),
  (78, 582066892741, 15557181910783658), (76, 296046756402, 2502458905812189),
  (76, 424421235710, 13022621661243298), (76, 222645638378, 3610974042167360),
  (72, 223348468194, 17351141499690177), (79, 113204602827, 5229024557183361),
  (74, 155328520138, 5165322886505459), (71, 226106298981, 15930173479220),
  (73, 205345178568, 2694109952332620), (95, 193550514722, 36523064398203876),
  (70, 474315846161, 5206136699446317), (85, 131607641314, 2666759072857300),
  (76, 558726680703, 1367553025207620), (92, 324599684677, 2825666362385679),
  (67, 115071488774, 5550394193942859), (68, 292993581219, 2391914265929160),
  (67, 177035470445, 18102624909573558), (66, 259648990707, 2778006881107659),
  (82, 536282814327, 16785008294774959), (64, 399165913279, 13043240216087017),
  (69, 513777502156, 5271261079524379), (63, 54837259436, 3408243158359840),
  (65, 389976847376, 2700583342755599), (73, 619252091852, 5006415596977079),
  (66, 191671959572, 10201841617342478), (82, 87824651640, 2544648957983520),
  (63, 387624799927, 7889649316403578), (62, 155377407031, 18218872380014337),
  (62, 471223563105, 10378218858060), (87, 357434964589, 2703707875054399),
  (77, 343626093365, 5408700576636560), (78, 492073893807, 7779574443436819),
  (71, 276139796167, 1104570026390), (64, 537974575072, 5122663067417859),
  (82, 378003355754, 2630831578401300), (62, 270733081732, 10450539137678158),
  (71, 505097183202, 2717761193276780), (70, 429342266024, 2731172098235281),
  (68, 234136362165, 7836680219894118), (60, 490888421377, 2550821555457540),
  (68, 604917764171, 64701083331480), (58, 246745404038, 10419783375581198),
  (67, 296573339768, 5196962073471119), (66, 533871332672, 15758680077963437),
  (58, 217528608366, 32350541665740), (62, 444991435917, 13041984594697120)]

/-- `vsop87d_dict.py` 627-726. -/
def mercuryL0_6 : List (ℕ × ℕ × ℕ) := [
  (63, 27396211581, 13045918546877075), (63, 522327184571, 7678484285065818),
  (64, 464108529425, 6127971327726600), (62, 184001159422, 18357092173262799),
  (55, 166692917947, 3141537924995700), (58, 406522187846, 3213213172294960),
  (57, 207569387080, 1789362780836560), (55, 249038254003, 2262565843570900),
  (77, 617301946895, 2503245336464809), (68, 468765980625, 7730742026875199),
  (54, 463708190151, 5132972344839720), (55, 21233757772, 222185663459700),
  (68, 236358626958, 2595379409198919), (53, 288564903323, 10101100013959699),
  (62, 119998944516, 2608397098831109), (54, 390599349467, 12375829085447139),
  (52, 260595997150, 7816061665050399), (72, 83460657204, 2290975735100660),
  (66, 317005690509, 7803936462902068), (52, 213323028898, 4429571712980940),
  (61, 163440457571, 6172597474020), (53, 200748586733, 2444883362438620),
  (51, 250978165702, 7890360671103658), (51, 322110952745, 13065281480330898),
  (60, 623105854697, 7688793562487679), (66, 323596712512, 7772690491262719),
  (59, 153485505891, 604422858137540), (59, 110559326249, 2610213023557580),
  (60, 108408977503, 2797280430499159), (49, 224548271996, 42590877651400),
  (55, 333645161611, 20759384658050018), (67, 59579109206, 9432977528619739),
  (56, 405652507832, 2601015259759030), (56, 149670493057, 13672259155786238),
  (49, 472236375377, 519336705879780), (49, 299400480872, 5225207235442399),
  (49, 415104806247, 5195539364070959), (50, 531916782876, 10391790082841998),
  (51, 432173710361, 5885703113654799), (50, 42233074233, 2768408958385880),
  (66, 506498799279, 7329712585900), (48, 80745705976, 270361615467560),
  (48, 16882113823, 2491831489016559), (49, 571984539931, 5038054783942739),
  (61, 5575706789, 16107937234650398), (47, 570016549134, 12937302023068098),
  (48, 471754734372, 5090312525752120), (50, 77120384679, 5068982616208319),
  (50, 475557775921, 14300566740785378), (46, 103065291695, 5186824866217880),
  (46, 407474771884, 5213767324751059), (45, 275496032307, 19613707343261078),
  (56, 148667124221, 3017189164827860), (47, 349884159195, 2657553789282839),
  (48, 204489119557, 2757319384827740), (46, 196812600979, 2722358001346740),
  (44, 58466186909, 124348760167840), (43, 48582749664, 7833849102328988),
  (46, 10663541022, 10265944689679438), (49, 192223535597, 5004992887576919),
  (47, 534811633125, 84608283475120), (46, 232911930278, 12938724732468258),
  (56, 146049477175, 2810288481337200), (50, 562967300375, 5390692863608099),
  (46, 509770472011, 15119994274106238), (43, 230154744958, 2670964694241340),
  (51, 288082546361, 2766986248985719), (55, 555849793732, 12320084011627098),
  (44, 48527820908, 8017490890793978), (48, 259296696271, 672071397934140),
  (44, 24824938054, 74299006053260), (45, 248949498300, 6583166677432480),
  (45, 486503115391, 5248336390411799), (41, 523419163545, 13028995251073639),
  (41, 91885509326, 5091023880452200), (44, 312424163301, 2612603617721200),
  (42, 566855218492, 16674070439565618), (39, 501739570944, 2640208932144380),
  (38, 2313645928, 211165031337760), (49, 411697361923, 2522759321282139),
  (38, 9191461136, 2611823000257860), (38, 503146092380, 2420300197815680),
  (51, 486305906640, 7815350310350319), (38, 13003640396, 2735106050415239),
  (38, 134984785206, 7026918098269838), (38, 52032944033, 10349841618454478),
  (40, 566117959398, 5217432181044009), (38, 92511339052, 11223170171963578),
  (51, 415223165568, 2717098337386779), (37, 167308781547, 5437489362643540),
  (38, 626592309401, 20225339517410), (36, 323911910889, 17633224614102798),
  (37, 190730795656, 330846589538040), (37, 303203144287, 7604185279012559),
  (38, 317519743409, 7878628684281638), (35, 390697621183, 8038247328510099),
  (38, 200924199028, 116247470440780), (36, 180080871248, 1933686230122839),
  (35, 466254825701, 7794731755506598), (43, 157972686428, 13044339704322898)]

/-- `vsop87d_dict.py` 727-826. -/
def mercuryL0_7 : List (ℕ × ℕ × ℕ) := [
  (35, 74694549648, 2598594062330859), (40, 211415671365, 349257156686960),
  (38, 465738726744, 2200391463486980), (37, 77571838110, 1670306213349900),
  (35, 500128829727, 5250966222391780), (47, 2275392308, 2501429411738339),
  (43, 315273137814, 13043563437251298), (34, 305681901713, 282083114412620),
  (37, 468248751145, 12366880510662538), (34, 573615227262, 4529065639321759),
  (40, 276893017076, 5027034151820800), (38, 601229835605, 2605757628056979),
  (34, 625090722416, 2171602677480000), (34, 95587257158, 7858010129437919),
  (33, 335217476663, 23590050682626116), (32, 235469869139, 238319301477620),
  (37, 380938441515, 898946770543239), (43, 227476214717, 2516997285559240),
  (32, 414291864821, 268672209454120), (37, 4571185840, 5217729075585669),
  (32, 153610678036, 23373174634397858), (38, 398892541543, 130082681820500),
  (42, 510993958059, 14520475475114079), (33, 291530565997, 13086611389874699),
  (43, 177793563831, 10393212792242158), (35, 535726747093, 2618986565983980),
  (35, 65119403092, 153597674296940), (44, 308976502022, 801419820292400),
  (31, 90638189649, 12822075860368418), (42, 337905134636, 2354965463732060),
  (38, 38543000653, 51546387109300), (39, 108681725797, 2577371696170459),
  (36, 430448026071, 5228601260436779), (31, 508183330827, 7821371280281838),
  (38, 316432629306, 9180513062721379), (39, 147494002110, 402226253196420),
  (42, 60192138814, 2438862392507099), (37, 323606285260, 2879151929624980),
  (40, 26646931277, 7831370604662679), (36, 438588497247, 8159184508100279),
  (35, 17056359345, 612929703950660), (30, 250459470137, 10275542612401219),
  (40, 458870970073, 2607685744131030), (40, 409419634913, 3583322369743080),
  (30, 479837659477, 2873635796704720), (32, 342931668217, 2440285101907260),
  (29, 252212486456, 135374874501680), (30, 469352116507, 2407292146977640),
  (29, 531070299201, 19959931813847595), (30, 320350587499, 2376295373275860),
  (36, 244362166097, 2333635554188260), (28, 277231585227, 2631224793727610),
  (28, 26775880889, 5044468393021580), (29, 350869792127, 1540665260500879),
  (30, 295993198433, 13202858860315479), (28, 341609673663, 13388209065283638),
  (33, 239929042753, 6156064729122359), (32, 134796958829, 3769845509994840),
  (28, 175026246832, 7868319406859778), (33, 451080770987, 377643088573480),
  (32, 500665307820, 2939636903695460), (37, 523066729388, 8160432185142238),
  (28, 99927277404, 132267764753140), (29, 200159770770, 2500482290928060),
  (35, 469198477732, 2206564060961000), (29, 380697601044, 2451305734029200),
  (32, 469401466159, 2725037784598199), (31, 586715902954, 581511085963699),
  (27, 126702311366, 2704419229754480), (30, 344351888035, 10481957755665119),
  (28, 536078058708, 41237109687440), (28, 573893599832, 24045246032331996),
  (34, 519151430726, 200855753915900), (30, 173241634839, 16376609444104518),
  (27, 530425762252, 2486408530079559), (32, 112362303179, 62567019231240),
  (30, 204171272941, 19393798608932378), (32, 478663079749, 7593051303185058),
  (30, 446891226150, 2545090686955000), (32, 473906176949, 4884767062686820),
  (27, 412514822062, 10435824112519680), (26, 67609297065, 3507737084700659),
  (33, 269651735555, 2564707785669659), (26, 494767789631, 20965882487420218),
  (35, 386705432105, 2546615934073500), (26, 479912409089, 19848993958638258),
  (26, 159971503257, 3128127020037200), (26, 120008223797, 15308484390447979),
  (26, 302443658098, 2672489941359840), (25, 203567222767, 5281721984488739),
  (27, 123585314301, 5309615231440), (26, 553069670975, 2565737279743509),
  (28, 93845909288, 15874617595363196), (25, 146977800361, 127268102562720),
  (26, 245961936761, 18165972224941078), (34, 239774146758, 3976343339365039),
  (29, 623821353511, 10276965321801379), (29, 490111965589, 11678365521669458),
  (25, 302186465541, 3945035284837340), (27, 377575599741, 10371882882698359)]

/-- `vsop87d_dict.py` 827-926. -/
def mercuryL0_8 : List (ℕ × ℕ × ℕ) := [
  (27, 392125046850, 8059690581759460), (23, 26970481255, 5260951802102519),
  (23, 598846059571, 2746367694142000), (25, 122968381596, 4997671893986139),
  (23, 557437029749, 15588752156313117), (23, 599507985020, 5000704580086580),
  (23, 144496012077, 568763036895200), (24, 46516912647, 13044662925487179),
  (23, 94331115897, 2877462523611540), (27, 80529908381, 269845144737720),
  (27, 27124610516, 126556747862640), (23, 89381228793, 15631411975400719),
  (23, 296257779899, 1254648193908300), (22, 542940490576, 148598012106520),
  (22, 103839316349, 10318913786188899), (23, 135379542887, 5216157918914679),
  (26, 601331218379, 12244498726584678), (30, 266518277698, 2560026839032000),
  (23, 407521268525, 23023917477710896), (24, 64355332403, 20304189308344138),
  (22, 139463873909, 95207662325960), (23, 198852683178, 739245440208480),
  (28, 137381287166, 30927832265580), (22, 215165551798, 10427683096772949),
  (25, 493854060665, 10170315774082378), (23, 312039946936, 7761669859140778),
  (28, 40745832322, 5563805098901359), (24, 44199264440, 2428553115085240),
  (23, 133496997363, 16329812945069079), (21, 401469381260, 12041767842777158),
  (24, 63196904603, 7794020400806518), (22, 570851933792, 284050090502600),
  (24, 445840068641, 18314501295611398), (23, 362152465067, 563503372935240),
  (21, 304515069387, 912357675501740), (21, 196886020684, 17728784588263658),
  (23, 59040250365, 2567235065096209), (21, 340810269373, 12958631932611899),
  (21, 309046433472, 2626798027185880), (24, 194276984966, 18367470392120858),
  (21, 398455358233, 619102301424680), (28, 93414213433, 5184195034237900),
  (20, 459348701559, 5206140717623499), (27, 461439897742, 5202772755872209),
  (20, 48128544481, 5230991533273340), (20, 331281154655, 2624831051095900),
  (23, 167970146036, 2311329318696320), (20, 244057473344, 5026460679993120),
  (25, 543422956232, 296894541660), (26, 361410457829, 5202475861330549),
  (20, 60321200025, 13831960486120995), (20, 262628682595, 16443591058941),
  (20, 65324774200, 15652030530244438), (27, 474395008878, 39131854712361297),
  (21, 445035214874, 2586207387316400), (21, 154947465846, 14807872442630),
  (27, 513202499307, 1238204602849360), (20, 68567124507, 4288307490340),
  (19, 192072938625, 7880051393681798), (27, 248188330716, 2566523710396129),
  (27, 127457874648, 786041939243920), (22, 229809961839, 2586504281858059),
  (19, 409473921906, 7625515188556358), (20, 467174071386, 20711415223730978),
  (22, 263315058351, 776836655669460), (20, 124271716091, 5217973843641149),
  (20, 611431848045, 2482474577899600), (23, 418071159026, 212587740737920),
  (21, 74169140667, 179525844372100), (19, 266558529381, 19144826611160),
  (20, 322150044915, 15654708861034496), (21, 618753985884, 10412726777059489),
  (20, 552295053123, 13036324963659538), (21, 390684382108, 5153439272140940),
  (20, 310019509540, 83896928775040), (25, 579466888187, 2609894884183810),
  (21, 623594952039, 10381480805420138), (19, 579715725254, 2627935140768579),
  (22, 71256272418, 95912285995760), (21, 139589766697, 10339532341032618),
  (18, 152837590084, 10730530692960), (19, 60262102760, 2756676971563859),
  (25, 78252166479, 5381487580033639), (25, 229282750485, 7752071936418998),
  (18, 211606037402, 2629831979980), (24, 160264230919, 20817353416749898),
  (21, 627983567062, 5434456676543099), (18, 213288203799, 7731453381575279),
  (19, 502228884604, 2611420146137400), (20, 552520867267, 959154174537180),
  (17, 412183264175, 2460261243487099), (22, 51026067819, 9597922721780),
  (17, 448889832500, 20827662694171758), (17, 394937058994, 2545905155552409),
  (17, 529323037427, 7613783201734339), (19, 367294881327, 688514988993081),
  (18, 102433476262, 5339962412392700), (20, 279332004367, 2592749577218939),
  (18, 583348216244, 29341078437720), (24, 300078431660, 2344656186310200)]

/-- `vsop87d_dict.py` 927-1026. -/
def mercuryL0_9 : List (ℕ × ℕ × ℕ) := [
  (20, 111172116756, 15650774908854539), (17, 56645607004, 10498439630560997),
  (20, 448412602835, 5275549387014719), (19, 518601674976, 254467263689240),
  (23, 419936868759, 2495222626968100), (17, 206473217893, 13000580396999417),
  (19, 55214472899, 5239621892558720), (19, 179653943961, 8948574784600),
  (22, 372989530019, 4899766049258080), (20, 593006048006, 1185235506339900),
  (18, 624870732707, 23368174972207438), (21, 301566725550, 2590782601128960),
  (16, 173390726659, 5291168279668019), (17, 323716624064, 11789303376878797),
  (22, 46092942812, 1936718916223280), (16, 506429474773, 4398153094993980),
  (21, 113950009268, 2565025925043430), (19, 319311280972, 4780392991637420),
  (21, 464218889935, 11254588789950538), (17, 296216633831, 10297583876645098),
  (16, 60226326404, 14984619399604558), (16, 586803075725, 12709890328117118),
  (18, 120391834667, 8736761641884019), (16, 453670173929, 266705233364140),
  (17, 577652308057, 5113065144696079), (18, 587706432040, 7805752387628538),
  (19, 524206436649, 6037008161635699), (16, 131713012946, 7884339701172139),
  (19, 533584429695, 10445470534051539), (15, 452789928708, 2598412095299360),
  (16, 412162585450, 18938603259226495), (17, 351115348265, 4545509230380700),
  (15, 165943772958, 5159611869614960), (15, 428577331083, 11731986822020),
  (16, 28814169191, 7846989497315978), (15, 64079475058, 5309373656913019),
  (20, 558915267196, 142356473196300), (15, 619871258212, 15674071794488319),
  (15, 205066243688, 1634258258571760), (18, 93517825293, 10434498400739678),
  (15, 464013294295, 297460995461100), (15, 261010767947, 783009253143480),
  (15, 260585262136, 15104766984290), (18, 92309429794, 157734354244780),
  (17, 136952124854, 7811563070029629), (18, 195659679786, 10287274599223239),
  (17, 537350443158, 2538426995695679), (15, 212952532360, 12810631931499895),
  (18, 406290374391, 5143992976961659), (15, 432808623679, 7774113200662879),
  (14, 346389680879, 10442639416486409), (20, 515870331048, 15440865498906678),
  (14, 453089771582, 5750328239153120), (16, 364720066701, 2407223205541439),
  (15, 296793644807, 2471924288872919), (14, 79165737765, 2592860140678200),
  (14, 436570321274, 7824948233072099), (14, 535774038541, 89607945665540),
  (14, 557146329055, 10424851979207818), (14, 622061869408, 10487418998439058),
  (15, 66056760946, 7762229586298359), (17, 439404084250, 16281049469943657),
  (17, 401700926317, 5187667988887919), (14, 596074966457, 437187636677420),
  (14, 551412243126, 4871356157728320), (14, 504161806976, 5302900266490040),
  (14, 309979574700, 12874735003836859), (19, 461702547610, 1602839640584800),
  (17, 209526572835, 5227776880141400), (14, 151516908270, 5216476058288449),
  (14, 276589411039, 2673491397488900), (17, 531477308011, 10360862250576419),
  (13, 604881581356, 5281280255517260), (15, 92065367569, 25632707791868312),
  (16, 276936523753, 4604650924364180), (19, 491561037107, 27703499374140),
  (15, 187874008695, 2616120026743319), (13, 148593089360, 5482426110862140),
  (15, 137228117638, 1804337807764579), (18, 295472168569, 7615205911134499),
  (17, 157020520015, 10424140624507738), (18, 297721991956, 18716727548807819),
  (13, 349902133309, 7839781847430758), (18, 218386661425, 14928874325784518),
  (17, 538851170070, 5204169723356339), (13, 626956660770, 9098916285949759),
  (13, 113674691740, 23700988537835456), (14, 218322393546, 22568722128005016),
  (13, 615204536524, 3521147989659159), (17, 132178768936, 10626281204951399),
  (14, 173651187343, 291288397987080), (13, 84907711504, 10234305502713779),
  (13, 239970220380, 15546092337225519), (17, 415374414668, 2601460601571519),
  (13, 72484082297, 15387896402397218), (13, 304907288197, 8043246990700519),
  (13, 137316946035, 10403522069664019), (15, 312808384217, 17344857138459),
  (13, 293774353095, 53362311835770), (13, 224535401962, 24611379237247216)]

/-- `vsop87d_dict.py` 1027-1126. -/
def mercuryL0_10 : List (ℕ × ℕ × ℕ) := [
  (16, 39665846969, 7811266175487968), (15, 475053341616, 13002003106399579),
  (16, 76587038276, 55745073820040), (15, 601045796437, 5111249219969609),
  (15, 93774708323, 46133643145440), (12, 403988032603, 7795615180375299),
  (15, 143833460468, 16909357054942798), (14, 214749108820, 7812960037513758),
  (12, 457098987537, 675104084034580), (17, 64086933600, 513164108405760),
  (13, 502936180992, 14491686689107098), (16, 365387335184, 10402810714963939),
  (13, 337789792164, 7921288503369238), (13, 138408689559, 488580943782820),
  (12, 495862705668, 5053673676596039), (14, 205563043425, 10769222499299659),
  (12, 393772391530, 10466800443595338), (14, 326407683636, 10440160918820098),
  (14, 294492731309, 5112035650622229), (13, 530554859990, 15547515046625677),
  (14, 514050840336, 72648201987020), (12, 241433841278, 2455192639860479),
  (13, 302673254226, 18282862108645738), (12, 294598982599, 503958824831300),
  (13, 357478000552, 7848412206716138), (13, 294343799803, 7931597780791098),
  (12, 517024351037, 10340243695732698), (12, 319152649116, 2830975977617119),
  (12, 616852058989, 7841327262185719), (13, 435939831008, 13376765136415116),
  (13, 596217383792, 253824850425360), (12, 297455363125, 2629015653674829),
  (12, 194777069809, 15637785565231058), (12, 181926611664, 7006943409151399),
  (13, 124212367708, 443751420837359), (12, 53775842570, 10647037642667518),
  (12, 406029507610, 7948752726550119), (12, 139982040688, 7741762658997139),
  (12, 570094378358, 7933020490191258), (12, 236617272843, 7999483177765518),
  (12, 477094162628, 7899958593825439), (12, 523189289937, 2641140855823160),
  (14, 299800402366, 107360902419080), (12, 615146193785, 10370460173298199),
  (12, 158617824624, 7857126704569219), (13, 37894193721, 5312498189211819),
  (12, 386549077079, 18985399758261938), (13, 470785515154, 23426143730907318),
  (12, 454097648940, 5625979478985279), (12, 132257018476, 14975670824819959),
  (11, 569779744921, 22222497657418498), (12, 60900120711, 275154759969160),
  (11, 79876219873, 7822557638908479), (13, 257664086838, 111649209909420),
  (12, 86411055123, 7804329678228378), (11, 402869363295, 26309778851992876),
  (11, 397587600566, 7699814194609619), (11, 529433199334, 5279755008398759),
  (13, 569550284497, 5168817153189420), (15, 391946731118, 2766524668402200),
  (13, 489334198524, 4542476544280259), (12, 233066141026, 13033642293365239),
  (12, 297893637259, 2588564974640009), (12, 33532325982, 4149455574658299),
  (11, 181390783997, 10430161594439259), (11, 367540306066, 7918163971070439),
  (13, 192207364074, 296288060177500), (12, 451335455691, 5419078795494619),
  (12, 589140397220, 15695401704032118), (12, 580412470555, 7213441238521598),
  (11, 254446138738, 2618388236879199), (11, 57810940674, 14287155835826878),
  (14, 149797486148, 10388364757594238), (11, 25563634033, 5266344103440259),
  (11, 434226157432, 6378635824152260), (11, 579546155779, 7635824465978218),
  (11, 543581617959, 439817468657401), (10, 345435285202, 2683089320210680),
  (10, 105961891051, 21689750046580215), (10, 554078372768, 5386797195265079),
  (13, 409291929409, 7837814871340781), (12, 609214378282, 15652353751408719),
  (12, 230793560033, 19282860753723037), (11, 549984194986, 13059329451835579),
  (10, 502934387609, 6373589830340), (10, 256161075764, 317814579056760),
  (10, 451229030686, 8091216425019559), (10, 326964460988, 14398093691036216),
  (14, 9133406732, 13851749687070), (14, 426704901561, 5217187412988529),
  (10, 212874423735, 18156305360783098), (10, 268594312022, 5355158008299420),
  (10, 501052160566, 5331148315504160), (13, 221304135803, 28788786006980),
  (10, 599285759925, 12906374190802519), (10, 23580667035, 15996999379441059),
  (14, 415846442712, 5219003337714999), (14, 217544501087, 250664496425660),
  (10, 239055885342, 7826222495201428), (10, 533589950489, 12884332926558638)]

/-- `vsop87d_dict.py` 1127-1226. -/
def mercuryL0_11 : List (ℕ × ℕ × ℕ) := [
  (10, 369795961564, 17593409713761978), (10, 550982370855, 18154882651382938),
  (12, 91293309387, 5325888651544199), (10, 21546965297, 15567422246769318),
  (10, 505408550952, 18246575879388479), (11, 147055363263, 7699102839909539),
  (14, 174381856487, 3664856292950), (14, 173080789777, 17129265789271498),
  (10, 179047706298, 23574672801577636), (12, 286918517100, 204530853280220),
  (13, 594639118711, 16895946149984296), (10, 524213703651, 13028573689738619),
  (14, 610459624713, 45490936652730), (10, 539397583397, 7775054398390),
  (11, 199827759086, 108860315660100), (10, 176064600598, 5248999246301800),
  (10, 511611480967, 11345551956041438), (14, 411983704037, 5406070744656579),
  (12, 284049561669, 18304192018189539), (12, 318297085790, 22850805242417638),
  (10, 162042818189, 23134855332920236), (10, 238308200520, 18197542470470538),
  (10, 517901157458, 20337574902421077), (10, 170609651468, 7859756536549199),
  (10, 301880618190, 10450117576343138), (11, 142631059185, 5822003486452380),
  (10, 345269160846, 9997973619952259), (11, 442716378223, 23532081923926238),
  (10, 445423293249, 546988378304060), (9, 468983089958, 8046279676800959),
  (9, 177635894319, 5029090511973100), (10, 141464391522, 4809181777644400),
  (11, 593477819724, 15811649174472898), (10, 255614008171, 10541810804348679),
  (9, 311835021508, 5220613314415280), (9, 224380470375, 29912639426920),
  (9, 322171579815, 5100621803173979), (9, 324808968579, 7869742116259939),
  (11, 73383746517, 1760573994829580), (10, 245523846147, 23383552853255918),
  (9, 435363918141, 19080959732422797), (9, 277090630961, 7609494894243999),
  (12, 23038883503, 13090748069822539), (9, 505551915235, 7038362027138360),
  (9, 511051597902, 15609370711156838), (11, 544617170556, 5677775640211140),
  (9, 467339642631, 10477109721017198), (9, 456456351898, 25981964948555276),
  (9, 73352390338, 7508556363415498), (10, 264743106367, 15318680642274539),
  (10, 518315351919, 138219793248460), (12, 475714453262, 25066574586953096),
  (11, 579093643324, 29262826660646834), (9, 624971585432, 20242014928260217),
  (12, 583966176266, 1179062908865880), (11, 284614041718, 18420439488630318),
  (10, 341187941424, 190546476494040), (10, 300240265080, 11882896374949679),
  (9, 390754065548, 15430866174525839), (10, 88848120961, 5131549635439559),
  (11, 449431301230, 15653130018480319), (9, 37279337773, 18262243553802017),
  (9, 594479236467, 3863438508065720), (9, 28434529807, 501991848741320),
  (11, 530507160437, 5125787599716660), (9, 505598171209, 6219764356324779),
  (9, 200743011270, 15419422245657316), (10, 229548861266, 121134107035900),
  (9, 140840962373, 7814927013603736), (11, 269818187519, 19504736464141717),
  (9, 377338110020, 5207384376488279), (10, 416632261841, 113015394758580),
  (9, 471851534374, 25743645647077652), (9, 156697202296, 15610793420556998),
  (10, 384491070936, 4279096527507320), (10, 84911221571, 6192112683900499),
  (11, 343504498990, 8172595413058778), (8, 346841587447, 15653453239644598),
  (9, 307023951195, 7826519389743089), (11, 533240591310, 4942425868345679),
  (9, 380703237983, 18483407909520617), (10, 524984657637, 86030992875280),
  (8, 232846981012, 15645115277816958), (9, 586810139691, 22113526778299136),
  (9, 7267483428, 5487942243782400), (9, 353847001127, 116958825140860),
  (8, 40730399000, 585278031526380), (10, 508938165465, 5366109698985160),
  (9, 9227292796, 28585755600522275), (9, 153921610006, 17100477003264519),
  (10, 602369999880, 10540388094948517), (9, 141005383919, 21547393573383916),
  (8, 295064025568, 18261144065566138), (11, 82592745776, 5209805573916449),
  (11, 189268014069, 5326551507434200), (9, 91534494504, 13044614426677099),
  (11, 568651428373, 9746646267636596), (8, 609336539202, 6553825598994759),
  (10, 471864870979, 186523140251760), (11, 33942008091, 235286615377180)]

/-- `vsop87d_dict.py` 1227-1326. -/
def mercuryL0_12 : List (ℕ × ℕ × ℕ) := [
  (10, 58149039679, 5155406248230919), (9, 463908561414, 13032930938665158),
  (8, 329340479484, 7653258707178998), (8, 39996086139, 3172293687092660),
  (9, 207892055945, 8430793800609799), (8, 10251061291, 13048951232977519),
  (9, 486488540298, 19738056103428919), (8, 284319355109, 24722317092456557),
  (9, 540644601602, 20526065018762815), (8, 299554948925, 2819955345495179),
  (8, 231903661034, 5095198844236979), (9, 367243760379, 13255827956824939),
  (10, 384482406254, 19907200143640), (8, 513311255182, 13378012813457078),
  (8, 450659262629, 3177553351052620), (10, 305711078565, 1209818670962840),
  (9, 543609233651, 6585133653522459), (8, 316471275120, 5343896364572659),
  (8, 549628419906, 20806332784627957), (9, 80806156177, 8494493427812219),
  (8, 145936166924, 5016082461135059), (9, 383369994945, 7990277894191058),
  (8, 505169260225, 22002588923089796), (10, 99908522442, 7837391574594198),
  (8, 178435325528, 474340176317040), (9, 244642878457, 7646845098100159),
  (10, 64041079500, 10668480895916879), (8, 22706755866, 13051429730643828),
  (8, 445568539518, 17584461138977378), (8, 530875425569, 10499150985261079),
  (8, 426578657244, 7826764157798568), (10, 366900856638, 2259533157470459),
  (8, 539530906170, 116889883704660), (7, 297217552646, 13096209312596478),
  (8, 541659156640, 10608273491922939), (7, 614449914187, 15483525317994278),
  (9, 377109166248, 7677772930365738), (10, 268699198523, 3190301400121119),
  (10, 411325286170, 5186162010327879), (10, 622285311837, 5221393931878620),
  (8, 405691998652, 13043288714897096), (8, 544182392744, 2484441553989579),
  (8, 531551782104, 2624720487636640), (7, 334982243781, 5377199272543299),
  (7, 76435484795, 10382903514820298), (9, 48166296597, 457162325795859),
  (10, 253857628850, 2373503698780239), (9, 306932982640, 5110219725895759),
  (9, 81667861584, 18039656488683258), (8, 137381137878, 18261920332637738),
  (10, 453462580754, 19518147369100217), (7, 592229713446, 10212975593169978),
  (9, 170197819412, 11439910691340), (9, 275554865259, 5214547942214399),
  (7, 503002929900, 7890512298646157), (8, 470162992466, 7768402183772379),
  (7, 216016333042, 25288450297371777), (7, 470104811610, 19709267317421938),
  (8, 334882273958, 9205283574460), (7, 464287583099, 10465917018726638),
  (7, 174834665027, 7911690580647459), (7, 140803395997, 7814931031780918),
  (7, 596603423152, 168505212250160), (8, 574025115791, 2744165188659100),
  (7, 332172728837, 18605789693598478), (7, 577399157694, 5282281711646319),
  (9, 540969007280, 2597058327335399), (7, 503097379670, 5109272605085480),
  (8, 485500497006, 7935341821591619), (9, 291790460578, 12885755635958798),
  (10, 262831495455, 10414542701785959), (8, 365717048924, 5047652706664519),
  (10, 497375703081, 12896064913380658), (7, 63731291763, 13235071519108818),
  (7, 370718359263, 6116527398858079), (7, 152409890800, 22457784272795678),
  (7, 583295581556, 7833997549599818), (7, 128982657880, 12779106088239799),
  (7, 438077281912, 8764855043279778), (7, 78772735446, 10404405494532720),
  (7, 555018242223, 14853289040742096), (8, 394353800260, 7792985348395319),
  (7, 468484570125, 12997155071751658), (7, 546082675395, 7635250994150538),
  (7, 89727780818, 2821378054895339), (6, 225546242417, 7995587509422498),
  (7, 185784871452, 2809646068073319), (6, 622318977780, 26198840996783535),
  (6, 392166942434, 18240202289558138), (6, 454553590954, 2623598186600050),
  (6, 4385251847, 18263499175191917), (6, 327000773736, 10455779811473397),
  (6, 148316940910, 2619168533015479), (6, 142098831764, 2602617716683400),
  (6, 463624566094, 5736917334194619), (6, 224614788518, 13107941299418498),
  (8, 146359871781, 7493557376844239), (7, 19039890992, 11707706600107178),
  (6, 230839350284, 2735347062020059), (8, 405701479596, 6017033472517260)]

/-- `vsop87d_dict.py` 1327-1406. -/
def mercuryL0_13 : List (ℕ × ℕ × ℕ) := [
  (6, 225676540184, 11800747305747319), (7, 519369769843, 9191956991589899),
  (6, 217221286567, 2757388326263939), (6, 304358438526, 8359118553310538),
  (6, 550261387027, 2623895081141709), (6, 555141392261, 20774762539098498),
  (7, 367760971466, 22912979622501558), (6, 514998820697, 13036473410930368),
  (6, 259291082745, 5218685198341230), (6, 370620257597, 18260820844401857),
  (7, 589987227798, 5375776563143139), (7, 117954845926, 20923291609768818),
  (7, 199199973963, 8828554670482199), (6, 529985761538, 17537664639941938),
  (7, 176338847974, 5548427217852879), (8, 55724966367, 12980673196855778),
  (5, 419687137282, 11103283741969639), (6, 186021237763, 9647152341295779),
  (6, 144535366888, 2004367456019880), (6, 148244229587, 26034934045064733),
  (6, 100031747475, 5153881001112419), (5, 8842088266, 7985989586700719),
  (6, 217116807817, 15637364003896038), (7, 257540094308, 7721855458853499),
  (6, 466124811472, 6571722748563958), (5, 569376389474, 5240015107885030),
  (6, 247972848111, 26654036346489414), (5, 447086994598, 2736058416720139),
  (5, 320880924837, 25976965286364855), (5, 398361684334, 5486252837768960),
  (7, 286077141334, 17917274704605396), (5, 246087822928, 15668119765992998),
  (7, 500361119157, 20976260706278277), (5, 535670104895, 2651381191808820),
  (6, 362607025643, 2788316158529519), (5, 80991017339, 2566199436506020),
  (6, 20069428083, 5049075416064679), (5, 377056538505, 16440750800278416),
  (5, 271005052987, 10442787863757239), (6, 84754795471, 10446605185498200),
  (5, 269389382491, 18049655813064099), (5, 404820376371, 12927704100346318),
  (6, 57829057010, 5060096048186620), (6, 421216601811, 18259565223011958),
  (5, 359670550074, 13107229944718418), (5, 8842684725, 2799336790651460),
  (6, 392034365, 7389183305794839), (6, 468979746906, 2614962911631439),
  (5, 461789756581, 2089453608277640), (5, 357093232780, 5365467285721279),
  (5, 36682731238, 14650558156934578), (5, 140545824640, 23320205537888398),
  (6, 235439456378, 13954342270198859), (4, 128935961583, 23436453008329177),
  (4, 110749672173, 5108609749195479), (5, 364294402198, 2733139074325260),
  (4, 216060134, 21325517862965238), (4, 440507427126, 12948322655190038),
  (4, 218529936793, 2338428698689860), (5, 93391333656, 5210250915728939),
  (4, 233941435272, 2338945169419700), (4, 359370682931, 4656447085590040),
  (4, 290835831307, 6129938303816579), (4, 627884818175, 17006884005193636),
  (4, 490170477242, 10488841707839219), (4, 456426377076, 4613157770177300),
  (5, 212658067178, 13054260848208958), (5, 250519016528, 7984566877300559),
  (4, 624881318031, 1807370493865020), (4, 110868110225, 5207202409456780),
  (4, 614515791357, 3410210134449819), (4, 294097893970, 12990271119577558),
  (4, 291542426579, 13021517091216908), (5, 220146513310, 8286565954368559),
  (5, 446570663623, 10423717327761157), (4, 513334797430, 2638702953584340),
  (4, 534965278511, 2478707632336920), (4, 417772291197, 5313209543911899),
  (4, 266996288682, 2557243927048119), (5, 114175711692, 18889839784101078)]

/-- `vsop87d_dict.py` 26-1407. -/
def mercuryL0 : List (ℕ × ℕ × ℕ) := List.flatten [
  mercuryL0_0, mercuryL0_1, mercuryL0_2, mercuryL0_3, mercuryL0_4, mercuryL0_5, mercuryL0_6, mercuryL0_7, mercuryL0_8, mercuryL0_9, mercuryL0_10, mercuryL0_11, mercuryL0_12, mercuryL0_13]

/-- `vsop87d_dict.py` 1409-1508. -/
def mercuryL1_0 : List (ℕ × ℕ × ℕ) := [
  (2608814706222746, 0, 0), (1126007832, 621703970996, 2608790314157420),
  (303471395, 305565472363, 5217580628314840), (80538452, 610454743366, 7826370942472259),
  (21245035, 283531934452, 10435161256629678), (5592094, 582675673328, 13043951570787099),
  (1472233, 251845458395, 15652741884944518), (352244, 305238094403, 110937855209340),
  (388318, 548039225891, 18261532199101939), (93540, 611791163931, 2719728169366760),
  (90579, 45481669, 2497852458948080), (102743, 214879173777, 20870322513259358),
  (51941, 562107554052, 566133204915220), (44370, 457348500464, 2502852121138500),
  (28070, 304195430989, 5106642773105500), (22003, 86475371243, 95559974160860),
  (27295, 509210138837, 23479112827416777), (20425, 371509622702, 2042657109242200),
  (20221, 51934047295, 2153594964451540), (17496, 572663608620, 455195349705880),
  (16680, 135134428173, 52969096509460), (15306, 179184360652, 1132266409830440),
  (15398, 574263453989, 1966976089979), (13964, 359426938083, 2449883024629040),
  (12822, 269591798562, 5328518483524180), (12621, 389530641889, 388133535800),
  (12566, 470537436663, 105938193018920), (7974, 417682324505, 2661759410666880),
  (7929, 50426804318, 4651447423399620), (8024, 392723313702, 2704350288318280),
  (7665, 248158305355, 5783713833230060), (8639, 606360282793, 7715433087262919),
  (6838, 277387065312, 711354700080), (6554, 553478998989, 677071060124560),
  (5846, 428139659800, 1698399614745660), (7285, 174581868954, 26087903141574195),
  (7179, 297766079692, 221875710418680), (6364, 213805619380, 2513230339996560),
  (5883, 219545230409, 1352175144159140), (4969, 247752134180, 3063985663863300),
  (4578, 155845855383, 2714728507176339), (4857, 484757952324, 3741056723987860),
  (5022, 394124675992, 2566130495069820), (4381, 494471456712, 21329909543800),
  (4211, 553886788148, 8392504147387479), (4299, 509070560802, 1021328554621100),
  (4593, 81920676333, 2555821217647960), (3571, 234341884629, 3285861374281979),
  (4454, 579159156180, 344257494496540), (3547, 359413896239, 2606823338067440),
  (3664, 139952931281, 7720432749453338), (3417, 49855041138, 2264532819660879),
  (3195, 125743024246, 1476523904326980), (3031, 445207030477, 723867559160000),
  (3284, 522996707635, 2544800585526019), (2974, 14234349726, 5058673338786459),
  (2855, 67083991526, 2609178447693220), (2773, 354351198199, 7260237737557039),
  (3132, 621365344759, 2608078959457339), (2732, 564171761904, 158907289528380),
  (2652, 88219699366, 5270549724824299), (3125, 607160751766, 2830666024576099),
  (2799, 251152391376, 2610757290247399), (2403, 115515130360, 2503563475838580),
  (2274, 185167073193, 3630118868778519), (2501, 434723465048, 4196252073693740),
  (2321, 544262378304, 2608402180621620), (2535, 580101392346, 2609501668857500),
  (2872, 163503968499, 2502140766438420), (2066, 107231845630, 4307189928903080),
  (2616, 278322243283, 10324223401420339), (1987, 295923214706, 2396913928119580),
  (1979, 444092591248, 10329223063610759), (1974, 83681704901, 1256615169998280),
  (1700, 228603732736, 11001294461544899), (1677, 463366122462, 5323518821333759),
  (1954, 467733727976, 28696693455731616), (1653, 125518276011, 3332657873317420),
  (1785, 180830270808, 2630120223701220), (1784, 517926273269, 42659819087600),
  (2143, 516312278245, 5122020654153979), (1597, 553494401703, 5672775978020720),
  (1590, 7660134798, 2386914603738740), (1574, 375870586370, 7371175592766379),
  (1362, 113830507985, 6805042387851159), (1358, 145317020242, 5164611531805379),
  (1586, 465681044624, 7937308797681599), (1347, 380254397382, 1931719254032860),
  (1242, 379389911401, 2587460404613620), (1124, 128920904043, 3174923519072640),
  (1065, 431416942177, 4085314218484400), (1014, 358126441973, 4873323133818299),
  (1259, 173130656223, 1243204265039780), (989, 33276224293, 5215613652224860),
  (1057, 435251408825, 7773401845962799), (1033, 372503880786, 628307584999140),
  (894, 29768279333, 10546099111839019), (910, 49823258962, 9979965906923798),
  (999, 529812267938, 6569755772473979), (1138, 256391312022, 2953047808653960)]

/-- `vsop87d_dict.py` 1509-1608. -/
def mercuryL1_1 : List (ℕ × ℕ × ℕ) := [
  (876, 491112286703, 6238909182935939), (912, 27449857787, 9869028051714458),
  (879, 478847722011, 1884922754997420), (869, 387957425954, 7879340038981718),
  (831, 235459129726, 2767697603685800), (791, 117444825871, 12938013377768178),
  (782, 392653768734, 3865405484155699), (782, 369412482234, 5217968761850640),
  (745, 209648894863, 5153590899683439), (736, 605470921559, 11443928868521),
  (733, 323019978320, 4762385278608960), (698, 299026308247, 5216869273614759),
  (780, 577004504059, 12933013715577759), (752, 422525357653, 5112353789995999),
  (752, 470099207936, 5110931080595839), (651, 587383050095, 233319639287200),
  (699, 482823185979, 3851994579197200), (656, 365375726729, 2566841849769900),
  (660, 198037689941, 2651450133245020), (808, 627898737551, 5313140602475700),
  (753, 564446551994, 4589273043315699), (610, 121194007471, 15377881048480),
  (604, 529267380518, 13610084775702319), (811, 422885181263, 2565419140369739),
  (697, 189331617498, 7730810968311399), (581, 261707271637, 7667463652943878),
  (549, 418661776549, 9413832702008578), (567, 608785859254, 2523470675982219),
  (549, 208003708209, 9178546086631398), (563, 138660458000, 7932309135491178),
  (527, 583448542494, 5005704242277000), (524, 245745967369, 46796499035440),
  (570, 310425513710, 1587461759536320), (699, 257322536922, 5218291983014920),
  (501, 39578180187, 3237097899156560), (542, 277109053528, 5439456338733519),
  (525, 131791713133, 31305483769889036), (513, 228640740711, 8281566292178139),
  (579, 545103833735, 5219547604404819), (617, 418395572588, 63989728631400),
  (449, 310044122691, 4995704917896160), (495, 211807671869, 5217192494779040),
  (431, 306714836720, 13154889425996438), (427, 535367311100, 4999662190420),
  (470, 146585019834, 106649547719000), (470, 107485595760, 10382192160120218),
  (415, 250109134151, 7198063357473118), (395, 524320159822, 5894651688439399),
  (408, 92030240581, 7783711123384659), (523, 492390082310, 5238910537858640),
  (377, 350882025297, 12588756221081219), (508, 103838633466, 2449171669928959),
  (418, 36439379673, 5196250718771040), (400, 351557589073, 2076042703319140),
  (359, 3091967859, 211876386037840), (356, 203727281128, 105226838318840),
  (423, 421437546240, 1809337469954999), (340, 164349471632, 7921930916633119),
  (336, 155276786593, 2450594379329119), (348, 106528227311, 6694104532641819),
  (327, 545093694594, 788008915333899), (303, 167537340603, 8847699497093359),
  (323, 559204872298, 5561838122811380), (281, 83478570176, 6349847038145279),
  (393, 55222046684, 4540509568190280), (280, 69995179262, 6474195798313119),
  (381, 216540447546, 52257741809380), (279, 417319236859, 15546803691925599),
  (314, 152755129973, 4493713069154840), (280, 333549459014, 7824403966382280),
  (272, 534763989826, 5376487917843220), (287, 498400171694, 2555109862947879),
  (288, 326773464056, 12477818365871879), (275, 59220058467, 10488130353139139),
  (229, 507700202235, 5260240447402440), (265, 104033681288, 2593833994443960),
  (224, 510726819180, 11787336400788819), (242, 44760602599, 2375470674870219),
  (214, 350460190598, 5845888213313979), (230, 245937674101, 15541804029735178),
  (211, 392377004339, 10392501437542078), (282, 381265243625, 53680451209540),
  (218, 488963285925, 10339601282468818), (200, 541573374322, 1606606586147480),
  (218, 41409439248, 7826759076008058), (201, 238235635877, 2343944831610119),
  (203, 269458032262, 5941448187474840), (196, 92807787406, 12022623016165999),
  (201, 200560473829, 16218875089859738), (183, 383128433173, 6915980243060499),
  (180, 220428238305, 8958637352302698), (215, 535652096610, 20618554843720),
  (178, 124568538055, 10309277421860), (196, 44564203205, 5175632163927320),
  (183, 288003872828, 332813565628019), (216, 448180965712, 2624168195205900),
  (215, 226752450953, 3396799229491319), (193, 434407767816, 10530721230790539),
  (200, 101165813281, 5174209454527159), (170, 557003076622, 9806853671630539)]

/-- `vsop87d_dict.py` 1609-1708. -/
def mercuryL1_2 : List (ℕ × ℕ × ℕ) := [
  (224, 97932137082, 7721144104153418), (168, 596360976147, 15763679740153858),
  (178, 142319344949, 7719721394753258), (196, 559654497318, 7827082297172339),
  (161, 551918174079, 2655586813192860), (197, 479975858562, 2545511940226100),
  (181, 439987679970, 10541099449648599), (159, 263928704121, 2842109953444620),
  (158, 75224521142, 5111642435295920), (196, 492493608061, 10276253967101299),
  (162, 282561928047, 2620234243025941), (194, 102167898855, 4418127784112419),
  (179, 511561177302, 2544089230825939), (152, 521934955501, 7762381213840858),
  (150, 598491689335, 7825659587772179), (184, 26375114604, 41948464387520),
  (144, 290657294970, 5132260990139639), (163, 101728531879, 2672780042788820),
  (160, 139225289207, 2601163707029860), (145, 576503611587, 8048246652890938),
  (140, 27227514908, 4684833017476560), (136, 22641179921, 15197546535238638),
  (142, 424343923379, 33914274084046457), (178, 408547287819, 12990982474277639),
  (142, 331130337074, 7805041032928458), (131, 70125733168, 334061242669980),
  (154, 172826405606, 7847700852016058), (159, 529643521725, 10890356606335558),
  (129, 326743532785, 2597346385288896), (128, 610775258657, 7604495232053580),
  (144, 406091644657, 5057961984086379), (164, 617696810226, 1940667828817460),
  (139, 511979950242, 43371173787680), (153, 130046862259, 1365586049117640),
  (132, 523445066335, 2661048055966799), (115, 461845793770, 5059384693486539),
  (121, 252027376421, 7614494556434419), (114, 451555533683, 2715439861876420),
  (106, 518068866237, 8550238501632259), (110, 345757703411, 2556532572348040),
  (100, 11496600894, 7482113447975718), (100, 395989644984, 2603790651966999),
  (100, 301535382150, 2820666700195260), (99, 599257260255, 2941603879785439),
  (117, 356597928882, 7149299882347698), (131, 596070215452, 122381784077861),
  (95, 184065750300, 8503442002596818), (102, 469459571654, 11456489811250778),
  (97, 87353840441, 18155594006083018), (118, 202298794976, 7828337918562238),
  (111, 407316227960, 9302894846799239), (90, 501726237192, 11567427666460119),
  (94, 231806507832, 8170628436968799), (89, 594413487088, 2513161398560359),
  (95, 372299894590, 9082986112470538), (120, 544384753792, 5174920809227239),
  (105, 501803826552, 7825982808936459), (86, 183551544255, 14396126714946238),
  (108, 453825443085, 7102503383312259), (83, 64015893446, 13001291751699499),
  (99, 52218556269, 2662470765366959), (94, 265386396812, 910390699411760),
  (98, 331480172250, 85319638175200), (80, 213424472361, 4215396900304900),
  (86, 205760695844, 7985278232000639), (84, 97023030623, 13139511544947959),
  (81, 28916970825, 8454678527471398), (81, 518614814481, 22041264243880),
  (81, 198383157756, 14956319713460), (82, 5817684667, 10433194280539699),
  (74, 162836007935, 2598481036735560), (75, 184245188133, 7869030761559859),
  (87, 358634855360, 13096920667296558), (74, 506505616563, 2714017152476259),
  (75, 547760610876, 13410904958500), (89, 625587801019, 15086608680029298),
  (98, 471698591369, 1272545343477500), (69, 505822197567, 191119948321720),
  (81, 205307563846, 159618644228460), (75, 205688075943, 2613789976347840),
  (69, 367576176321, 2460903656750980), (81, 138060133126, 5232958509363319),
  (69, 160181551296, 12948391596626239), (67, 543668176629, 18150594343892598),
  (66, 156953438995, 1980482729158280), (66, 392553131581, 14631413330323418),
  (62, 346967694133, 2492542843716640), (79, 356674606057, 4984260989027639),
  (67, 476959706409, 2588171759313700), (61, 261995550094, 18372470054311278),
  (61, 163344766876, 1354142120249119), (61, 231153135385, 12415643985787958),
  (58, 388678278617, 1820781398823521), (82, 136242531494, 12885044281258718),
  (58, 298990179150, 11020632121940), (64, 498131448153, 18827665404017158),
  (67, 232849722473, 2629408869001139), (57, 372454115593, 2942851556827400),
  (66, 169869503126, 5154302254383520), (55, 230093263701, 5264377127350280)]

/-- `vsop87d_dict.py` 1709-1808. -/
def mercuryL1_3 : List (ℕ × ℕ × ℕ) := [
  (69, 178774826271, 5163900177105299), (67, 400863968986, 10329934418310839),
  (74, 614089486388, 1447735118320000), (54, 527646510692, 4952735145767539),
  (56, 233495620660, 10435872611329758), (62, 341967311766, 10435549390165479),
  (50, 120854390978, 2397625282819660), (64, 58512976749, 30755762096960),
  (62, 369245785160, 64141356173899), (62, 447317710621, 63699627202420),
  (49, 409291926847, 5281570356946240), (61, 78849475911, 15599772788435058),
  (47, 214659254610, 799452844202420), (47, 507866085, 10413831347085879),
  (45, 228588893693, 2576439772491679), (51, 298348805265, 4056525432477420),
  (47, 403957254582, 7782999768684579), (47, 321862563103, 17806336849396059),
  (45, 441401819607, 10328511708910679), (54, 347879330948, 7784422478084739),
  (54, 283659707386, 668122485339960), (56, 111360360738, 13149889763806018),
  (46, 338384624666, 2650738778544939), (55, 268637168389, 2593412433108940),
  (46, 478696197215, 10456491166173479), (59, 129879100690, 3881335657634920),
  (43, 386025201636, 1002183728009940), (44, 190320971624, 5152879544983359),
  (55, 48335079540, 2396202573419499), (42, 411693586607, 2619099591579279),
  (44, 164247485835, 7626607127560), (42, 621848377968, 2609453170047421),
  (41, 273996884659, 2586749049913539), (43, 38981425968, 108970879119360),
  (43, 489046790101, 2439573747207180), (41, 44351702671, 2561993815121980),
  (41, 147439583353, 7668175007643958), (39, 171519867865, 11159028815789679),
  (41, 567594181048, 5450900267602040), (49, 165739950579, 158195934828300),
  (40, 185008425708, 2799910262479140), (38, 399668572981, 938484100807520),
  (37, 283147987268, 10213285546210999), (39, 84546566819, 36523064398203876),
  (37, 465200082367, 9069575207512038), (37, 94736176192, 7666752298243798),
  (40, 16806354899, 2275976748529401), (49, 202480943113, 13499146920492979),
  (41, 585592543833, 5229024557183361), (40, 121491127400, 6460784893354619),
  (41, 307842612799, 2608127458267419), (35, 389800430981, 15748301859105378),
  (37, 29068345666, 9758090196505119), (35, 474965057267, 3962932434406539),
  (35, 188777425098, 2652161487945100), (33, 360227423859, 15610082065856918),
  (35, 196114191570, 7478159856730), (45, 372467663437, 3960965458316560),
  (38, 429218444251, 3974376363275060), (32, 595900501016, 7741051304297059),
  (32, 64794221724, 264845482547300), (39, 508510962281, 2586355834587229),
  (31, 162486752727, 14176217980617538), (31, 125910229689, 5324230176033840),
  (31, 265918037491, 10434449901929598), (32, 169740803, 5206136699446317),
  (31, 612210016938, 2597769682035479), (30, 572239820341, 57968758699880),
  (30, 70553319870, 5212580966124419), (39, 160801806885, 33385594076940),
  (30, 528578152795, 10223284870591838), (29, 53270948692, 5069693970908399),
  (29, 40281274949, 3547274414964940), (28, 296171859812, 10090903762133139),
  (34, 141428136641, 14065280125408198), (29, 600401578551, 5429457014352679),
  (32, 45221016093, 11691776426627958), (28, 507088961710, 2623746633870879),
  (28, 533382835025, 10779418751126219), (30, 386080757411, 20764384320240439),
  (28, 481897403543, 17004917029103659), (31, 190989851759, 2630831578401300),
  (35, 126114015069, 9711293697469679), (28, 201146788563, 5269838370124219),
  (33, 431496976407, 15493834595416138), (28, 446781875730, 7841748823520739),
  (33, 25034815279, 5165322886505459), (26, 7835049738, 5101333157874059),
  (29, 332582529322, 11063468841628819), (27, 601993388409, 2522759321282139),
  (36, 79025288269, 11911685160956658), (26, 468624143375, 63278373931320),
  (27, 114521834701, 12133560871375339), (25, 342095174931, 95628915597060),
  (28, 273386270717, 2731172098235281), (24, 82215620694, 31418617986960),
  (25, 521681600178, 2524182030682300), (25, 357372833543, 5271261079524379),
  (27, 505183520711, 10594068546158058), (31, 225462520789, 2672068688088739)]

/-- `vsop87d_dict.py` 1809-1908. -/
def mercuryL1_4 : List (ℕ × ℕ × ℕ) := [
  (25, 486890931082, 10477821075717278), (23, 301659387998, 5218243484204840),
  (26, 213973174244, 10371171527998279), (23, 460383496965, 5207271350892979),
  (23, 455605691468, 15557181910783658), (22, 369622699918, 73587651353180),
  (23, 240544682432, 819427533320860), (22, 244094101414, 270361615467560),
  (27, 529221944987, 2616268474014150), (22, 411517024183, 1920275325164339),
  (29, 425385019536, 64701083331480), (21, 211851790816, 20759384658050018),
  (29, 291003553544, 17695398994186718), (26, 568398596586, 9524770557217918),
  (21, 529289519906, 15024434299945379), (24, 305210539174, 13041984594697120),
  (20, 254144132983, 5121951712717779), (20, 616401959180, 3519181013569180),
  (22, 322920342008, 108308023229360), (28, 30709453091, 15705710981453978),
  (23, 165280537431, 21436455718174578), (27, 372484040647, 62174380083920),
  (23, 259065413623, 7158248457132299), (22, 94588004362, 5202202747266360),
  (20, 384776796820, 532747610838280), (24, 482779429778, 10437128232719658),
  (19, 194368317235, 2274729071487440), (23, 319739923216, 604422858137540),
  (20, 58967836529, 17240203644480839), (19, 273169091081, 5550394193942859),
  (18, 163099638721, 4883519385644859), (22, 162646807429, 10434773123093879),
  (18, 490435895585, 7763092568540938), (18, 59687432455, 18357092173262799),
  (24, 558828197916, 3428217847478280), (18, 554856348293, 20981260368468695),
  (19, 53136209334, 5551641870984820), (20, 73777252741, 12938724732468258),
  (21, 462446809035, 1336244970679920), (21, 194768946886, 48763475125420),
  (19, 418946427203, 7811414622758799), (23, 243977160852, 2482233566294780),
  (17, 224086275048, 2622201219115920), (18, 508348808758, 2768408958385880),
  (17, 431062701282, 5006415596977079), (17, 62713581550, 4429571712980940),
  (22, 9847423078, 2694109952332620), (19, 209224104001, 8614379857806159),
  (16, 43713509764, 10196251826560), (16, 427219175799, 2417670365835700),
  (18, 524040005379, 6824187214462319), (20, 509682447452, 6005589543648739),
  (16, 408590900542, 14742351185532758), (18, 212913862198, 10657036967048359),
  (16, 100668387150, 2513872753260440), (16, 576419504418, 1422709400160),
  (21, 616511987091, 5216917772424839), (16, 82798074394, 9635708412427259),
  (16, 375399093257, 15930173479220), (17, 495698248546, 5222580290505260),
  (17, 611461465994, 2619810946279360), (17, 619302565011, 20415127163553478),
  (17, 534573358099, 7873167441507700), (16, 190468795194, 12832075184749259),
  (17, 373180335896, 18208563102592478), (17, 586222137701, 3213213172294960),
  (19, 156034038551, 5196962073471119), (18, 254086242120, 2578034552060460),
  (15, 429267057949, 169216566950240), (16, 175865740707, 5322807466633679),
  (20, 235700883433, 7561525459924959), (15, 529296109539, 13044662925487179),
  (14, 85174293693, 7890360671103658), (15, 550776870695, 5280859002246159),
  (17, 596622721781, 3276912799497380), (14, 540589812318, 5238199183158559),
  (14, 292783624754, 13022621661243298), (14, 473334676783, 2616416921284980),
  (18, 409540263999, 15758680077963437), (15, 500568645183, 2879151929624980),
  (13, 88297787282, 2429264469785319), (18, 7544318179, 219908734328700),
  (14, 39198838648, 116247470440780), (12, 487283902225, 6490125971792339),
  (13, 428417448099, 2386604650697719), (13, 377892895408, 39131854712361297),
  (12, 90287358387, 10420204936916218), (12, 168139724364, 7293623331633979),
  (15, 376108194990, 11112232316754239), (12, 182629728829, 2290975735100660),
  (13, 125451832397, 2672489941359840), (12, 574844907374, 9767038771289718),
  (12, 152451201886, 13065281480330898), (11, 530694474936, 2460192302050899),
  (14, 282065667408, 163906951718800), (15, 479144654769, 7772690491262719),
  (13, 537369194634, 898946770543239), (13, 384042504901, 2595379409198919),
  (15, 8558342266, 13044339704322898), (11, 516135808879, 23368174972207438)]

/-- `vsop87d_dict.py` 1909-2008. -/
def mercuryL1_5 : List (ℕ × ℕ × ℕ) := [
  (12, 99700192092, 6583166677432480), (12, 451508367315, 7818744335344699),
  (12, 62022460619, 3610974042167360), (11, 108182792000, 12937302023068098),
  (14, 559428027773, 2544648957983520), (11, 468045355937, 7492309699802278),
  (14, 468060965317, 2766986248985719), (12, 491061349082, 5408700576636560),
  (10, 73914692842, 10391790082841998), (13, 496538793287, 16107937234650398),
  (11, 31330958005, 18218872380014337), (13, 374649756573, 14520475475114079),
  (10, 179124533717, 94917560896980), (10, 424347093551, 7810993061423779),
  (10, 122394899357, 10450539137678158), (12, 321001019103, 10201841617342478),
  (11, 448294709049, 10276965321801379), (10, 433936275875, 9597922721780),
  (10, 373409843943, 19959931813847595), (12, 608780023115, 2545090686955000),
  (12, 52219299955, 12511203959948818), (12, 312928292612, 1161055195837420),
  (13, 259745313501, 7837814871340781), (10, 95664142687, 4529065639321759),
  (11, 304942272888, 30927832265580), (12, 342470973506, 14300566740785378),
  (9, 524571653547, 3408243158359840), (12, 194632930172, 113567687189320),
  (10, 275654212398, 10378218858060), (10, 606089846081, 7827033798362259),
  (9, 142295924162, 1254648193908300), (9, 523889079020, 16040736938481),
  (10, 177339719648, 2575404720080480), (11, 345444324976, 2717761193276780),
  (10, 240808781707, 346224470586520), (12, 21115577900, 10393212792242158),
  (10, 44397528833, 2672931670331319), (9, 439355955971, 22434479570190),
  (9, 576319803259, 8645798475793119), (9, 321350384534, 12366880510662538),
  (9, 550134612867, 2535202662804239), (9, 361240341796, 7678484285065818),
  (9, 371346537596, 7821371280281838), (11, 4658635952, 13672259155786238),
  (9, 316339317765, 2407934560241519), (10, 152307057829, 19613707343261078),
  (9, 578277172101, 13721022630911658), (9, 534709321166, 1670306213349900),
  (10, 110603431719, 7615205911134499), (10, 292130709301, 7825708086582259),
  (9, 492591389280, 5260951802102519), (8, 447915729665, 16785008294774959),
  (10, 352532046928, 5004992887576919), (9, 574701495675, 12822075860368418),
  (9, 339636103723, 2577151127191760), (9, 40885845708, 17351141499690177),
  (9, 5214771460, 20923291609768818), (11, 439473500560, 16674070439565618),
  (8, 83788793173, 5210102468458109), (9, 39740145698, 20817353416749898),
  (9, 214648409917, 5225058788171570), (11, 77019715443, 18102624909573558),
  (8, 46458507594, 1104570026390), (9, 375726239516, 2639546076254379),
  (11, 388183253605, 9902413645791399), (9, 591589628233, 2640429501123080),
  (8, 362038830716, 2873635796704720), (9, 553218561478, 5091023880452200),
  (8, 398222002302, 5122663067417859), (8, 220332298794, 3507737084700659),
  (10, 171606704784, 13202858860315479), (9, 419828805921, 12320084011627098),
  (8, 494949508683, 126315736257819), (8, 38255024740, 7880051393681798),
  (8, 355931433878, 2550821555457540), (8, 206623542364, 13388209065283638),
  (8, 276004606287, 10349841618454478), (9, 607146960892, 5259529092702359),
  (10, 464768763301, 24045246032331996), (10, 475089417351, 15811649174472898),
  (9, 316830318341, 15653130018480319), (9, 51442466727, 23373174634397858),
  (8, 184170519176, 5232536948028299), (9, 158020929410, 13086611389874699),
  (8, 131021834242, 7816061665050399), (7, 352394232228, 20965882487420218),
  (7, 530361639156, 5185230086649099), (7, 168129390597, 10370460173298199),
  (7, 493711462539, 7761669859140778), (7, 426547182656, 13036324963659538),
  (8, 588262362064, 5195539364070959), (9, 285041915486, 5228601260436779),
  (9, 454751921819, 22222497657418498), (7, 295164397426, 5885703113654799),
  (7, 509932324366, 2642175908234360), (8, 595900851407, 62567019231240),
  (8, 287611784406, 18259565223011958), (7, 295245442922, 7026918098269838),
  (9, 185768285044, 216876048228260), (9, 587894263333, 20304189308344138)]

/-- `vsop87d_dict.py` 2009-2108. -/
def mercuryL1_6 : List (ℕ × ℕ × ℕ) := [
  (7, 576376514627, 5339962412392700), (7, 319368974135, 7794731755506598),
  (7, 58513513972, 1789362780836560), (7, 125969543054, 10427534649502118),
  (7, 178997113742, 18716727548807819), (7, 304234073392, 7710123472031478),
  (7, 513452237557, 7730742026875199), (8, 239389370291, 5153439272140940),
  (7, 36315569295, 17917274704605396), (9, 465044386389, 15695401704032118),
  (7, 575015377153, 7858010129437919), (8, 490310056069, 10170315774082378),
  (7, 281152781596, 9274106060792258), (7, 453777069646, 7833997549599818),
  (8, 372793390212, 7779574443436819), (7, 499225219771, 10265944689679438),
  (8, 124101149187, 12885755635958798), (6, 124806705522, 18165972224941078),
  (7, 141908776548, 3945035284837340), (8, 507207947299, 20242014928260217),
  (6, 388021248158, 10499150985261079), (7, 44811727260, 10430161594439259),
  (7, 619019459405, 3769845509994840), (8, 327628873745, 18314501295611398),
  (6, 104156861985, 10419783375581198), (7, 604804574225, 10318913786188899),
  (7, 615588549143, 7593051303185058), (7, 201982955946, 17633224614102798),
  (7, 468299502093, 83896928775040), (7, 432694078051, 10424851979207818),
  (6, 30098706976, 5482426110862140), (7, 239268679107, 8059690581759460),
  (6, 45279066685, 22568722128005016), (6, 493617566760, 21547393573383916),
  (6, 422528261713, 7933020490191258), (7, 553062936347, 91793028598180),
  (6, 27837413876, 7613783201734339), (7, 150054882304, 7831370604662679),
  (6, 484865195534, 21325517862965238), (7, 37969316028, 10287274599223239),
  (6, 482915128356, 7985989586700719), (7, 236435599398, 5822003486452380),
  (7, 76243719900, 18367470392120858), (6, 348561717935, 6156064729122359),
  (7, 315542325331, 5302900266490040), (6, 204066112896, 15653453239644598),
  (6, 408906102427, 9191956991589899), (6, 364988511750, 15119994274106238),
  (6, 409613031145, 5386797195265079), (6, 349486002612, 6665315746634839),
  (7, 289745929648, 23023917477710896), (6, 399809593088, 5038054783942739),
  (6, 365663654813, 7038362027138360), (6, 623319937932, 18261920332637738),
  (6, 15202166498, 5185941441349179), (6, 36162525319, 2682377965510599),
  (6, 503417122369, 7878628684281638), (6, 261401898803, 8038247328510099),
  (6, 506939782090, 5184195034237900), (8, 496432797037, 5239621892558720),
  (6, 374091556543, 15547515046625677), (6, 429792825666, 5281280255517260),
  (7, 602219529486, 15650774908854539), (5, 628085632767, 3141537924995700),
  (6, 270517720720, 5249219815280499), (7, 625185953525, 7493557376844239),
  (5, 603800330793, 8494493427812219), (7, 208385155566, 10481957755665119),
  (5, 279143401592, 5131549635439559), (7, 15300257128, 201498167179780),
  (6, 545690475475, 124348760167840), (5, 172310829290, 10371882882698359),
  (5, 5343175320, 2704419229754480), (5, 135980682609, 9432977528619739),
  (7, 594496795198, 25632707791868312), (6, 188665916947, 8017490890793978),
  (5, 215640465605, 23590050682626116), (5, 597271372078, 15631411975400719),
  (6, 266620904510, 22912979622501558), (5, 252891655111, 12375829085447139),
  (6, 120953605164, 13045918546877075), (5, 406443360712, 13028573689738619),
  (7, 134355308244, 173112235293260), (5, 236158299954, 7889649316403578),
  (5, 96987247797, 14928874325784518), (5, 76610110351, 2486408530079559),
  (5, 195647355963, 7657154375522019), (5, 113701088228, 2631224793727610),
  (5, 105826639118, 2778006881107659), (5, 454130791881, 15674071794488319),
  (6, 358276567647, 19848993958638258), (5, 51603916276, 17129265789271498),
  (6, 303452226064, 7774113200662879), (5, 146111595893, 10101100013959699),
  (5, 2805624095, 14975670824819959), (5, 510195955921, 11223170171963578),
  (5, 487459278742, 7841327262185719), (7, 369898590349, 8160432185142238),
  (5, 76195152302, 41740645026518717), (5, 55904094194, 238319301477620)]

/-- `vsop87d_dict.py` 2109-2208. -/
def mercuryL1_7 : List (ℕ × ℕ × ℕ) := [
  (5, 395096384085, 7818892782615528), (5, 176549372525, 5377199272543299),
  (5, 335356708410, 20526065018762815), (6, 557902902188, 8725317713015496),
  (5, 26610630357, 23574672801577636), (5, 290596877294, 15419422245657316),
  (4, 116974176650, 19393798608932378), (4, 393130462476, 13028995251073639),
  (4, 433627478046, 8948574784600), (5, 280022335340, 443751420837359),
  (6, 470286246928, 9180513062721379), (5, 182284966431, 188490116341740),
  (5, 202580304988, 25976965286364855), (4, 465165864815, 19504736464141717),
  (4, 58858147700, 32350541665740), (4, 400623668740, 17537664639941938),
  (4, 64833718455, 15637785565231058), (4, 271436739189, 18240202289558138),
  (5, 468929437146, 7931597780791098), (4, 571176695959, 8159184508100279),
  (4, 142876132655, 5225207235442399), (5, 255069425936, 15430866174525839),
  (5, 142813778372, 26654036346489414), (4, 200085806148, 18938603259226495),
  (5, 429231489707, 22002588923089796), (4, 620316213523, 7911690580647459),
  (4, 85257120719, 11800747305747319), (4, 577579934605, 12979961842155698),
  (4, 447492094862, 13767819129947099), (4, 164566631180, 7869742116259939),
  (5, 217514536840, 5132972344839720), (6, 478710650697, 10275542612401219),
  (4, 146002058771, 93592998070881), (5, 513889133658, 13090748069822539),
  (4, 189321187110, 211165031337760), (4, 10839681347, 3813303563780),
  (5, 442201446083, 7805752387628538), (5, 565870377214, 130082681820500),
  (5, 590579064813, 147886657406440), (4, 524580055005, 5230991533273340),
  (4, 274756161638, 14491686689107098), (5, 331232177694, 4884767062686820),
  (4, 443048849829, 11882896374949679), (4, 51369916437, 18156305360783098),
  (4, 522571179686, 26198840996783535), (4, 80000960641, 148529070670320),
  (4, 325642623421, 19518147369100217), (5, 523264312237, 12699694076290558),
  (4, 386524951456, 20976260706278277), (4, 343760746038, 23426143730907318),
  (4, 67741502331, 13107941299418498), (4, 540862384292, 10498439630560997),
  (4, 30384598125, 28590755262712695), (4, 565734972357, 5186824866217880),
  (4, 555015227967, 14984619399604558), (4, 151752118872, 10381480805420138),
  (4, 253135799952, 7948752726550119), (4, 188512485652, 5487942243782400),
  (4, 512386500502, 18262243553802017), (4, 436228014188, 20774762539098498),
  (4, 324471199066, 13002003106399579), (4, 51045647492, 10769222499299659),
  (4, 426267840541, 13265827281205778), (4, 308522628552, 17584461138977378),
  (4, 338866894732, 10488841707839219), (4, 121404057369, 13954342270198859),
  (5, 375130732000, 6219764356324779), (4, 30056239753, 23320205537888398),
  (4, 420598588282, 21891651067880458), (4, 134568004641, 18282862108645738),
  (4, 68519128486, 10427683096772949), (4, 20412928769, 16909357054942798),
  (3, 98973904852, 10541810804348679), (4, 342019897755, 6127971327726600),
  (3, 522780381742, 7833849102328988), (3, 267114319601, 2499819435038059),
  (4, 165814724695, 5080003248330259), (4, 324764679291, 2828699048486120),
  (4, 601723954923, 10423717327761157), (3, 399050522839, 7137855953479178),
  (3, 346632047879, 4549458142974879), (3, 427304181959, 13059329451835579),
  (3, 405932083484, 5282281711646319), (3, 589324219451, 5048364061364600),
  (3, 288091404327, 7814927013603736), (3, 409573256493, 15546092337225519),
  (3, 40695406256, 5227889905736699), (3, 53381434741, 2670964694241340),
  (3, 100008179165, 5026460679993120), (4, 567939124426, 10647037642667518),
  (3, 77610404005, 14287155835826878), (3, 380375047171, 2640208932144380),
  (3, 244134109777, 15652030530244438), (3, 98764974659, 12884332926558638),
  (3, 362903815930, 13043563437251298), (3, 212651302584, 7846989497315978),
  (3, 429158350083, 15440865498906678), (3, 106499703474, 2673491397488900),
  (3, 186490629185, 5170784129279399), (3, 595559848753, 10434498400739678)]

/-- `vsop87d_dict.py` 2209-2247. -/
def mercuryL1_8 : List (ℕ × ℕ × ℕ) := [
  (4, 360184879954, 20711415223730978), (3, 328684847821, 20827662694171758),
  (3, 280509981839, 10435824112519680), (3, 502808401414, 13043240216087017),
  (3, 616601650050, 2004367456019880), (3, 529581547615, 5750328239153120),
  (3, 135036448550, 2391914265929160), (2, 375076268715, 13000580396999417),
  (3, 305479754348, 16281049469943657), (3, 206087055668, 5206559996192899),
  (3, 111245383788, 19282860753723037), (2, 190218644384, 2435678078864160),
  (2, 474203919229, 7688793562487679), (2, 63548334553, 2338428698689860),
  (2, 251564214512, 2666759072857300), (2, 608909078783, 11678365521669458),
  (2, 356733241522, 2607367604757259), (3, 560392923976, 10446605185498200),
  (2, 356126103854, 2618986565983980), (2, 597797555746, 5016724874398939),
  (2, 441481991835, 6553825598994759), (2, 591297170155, 8736761641884019),
  (2, 517508169630, 16329812945069079), (3, 110832319418, 2560026839032000),
  (2, 211477268878, 2577371696170459), (2, 215515419441, 5195146148744649),
  (3, 543138498093, 10668480895916879), (2, 11511311275, 2717098337386779),
  (2, 522579437397, 688514988993081), (2, 293412437896, 6378635824152260),
  (3, 619860078008, 2500482290928060), (2, 23150025826, 2444883362438620),
  (2, 54898566845, 15308484390447979), (2, 63373893542, 126556747862640),
  (2, 449873870855, 5000704580086580), (2, 557750243319, 2592860140678200),
  (2, 566467419812, 2546615934073500), (2, 510682926241, 15996999379441059),
  (2, 349751807681, 25981964948555276)]

/-- `vsop87d_dict.py` 1408-2248. -/
def mercuryL1 : List (ℕ × ℕ × ℕ) := List.flatten [
  mercuryL1_0, mercuryL1_1, mercuryL1_2, mercuryL1_3, mercuryL1_4, mercuryL1_5, mercuryL1_6, mercuryL1_7, mercuryL1_8]

/-- `vsop87d_dict.py` 2250-2349. -/
def mercuryL2_0 : List (ℕ × ℕ × ℕ) := [
  (53049845, 0, 0), (16903658, 469072300649, 2608790314157420),
  (7396711, 134735624669, 5217580628314840), (3018297, 445643539705, 7826370942472259),
  (1107419, 126226537554, 10435161256629678), (378173, 431998055900, 13043951570787099),
  (122998, 106868541052, 15652741884944518), (38663, 408011610182, 18261532199101939),
  (14898, 463343085810, 110937855209340), (11861, 79187646439, 20870322513259358),
  (5243, 471799772791, 2497852458948080), (3575, 377317513032, 23479112827416777),
  (2566, 144059109766, 2719728169366760), (2045, 149570544876, 5106642773105500),
  (1064, 46023695675, 26087903141574195), (972, 180344701358, 95559974160860),
  (628, 618483168149, 52969096509460), (628, 484930105320, 2449883024629040),
  (763, 454299337366, 7715433087262919), (654, 98170349539, 566133204915220),
  (572, 592841937309, 2502852121138500), (552, 213228646570, 2042657109242200),
  (507, 411466890786, 455195349705880), (608, 454152310086, 221875710418680),
  (439, 340705996719, 1132266409830440), (381, 283442391504, 2661759410666880),
  (370, 82360646560, 677071060124560), (312, 518785829630, 4651447423399620),
  (314, 342002895816, 28696693455731616), (307, 320507351217, 105938193018920),
  (332, 97416155325, 2513230339996560), (327, 222989850002, 2153594964451540),
  (303, 468482058244, 2704350288318280), (247, 587612469398, 1698399614745660),
  (311, 422422008005, 344257494496540), (237, 437101224231, 11443928868521),
  (234, 93917232374, 3063985663863300), (273, 129086264556, 10324223401420339),
  (209, 330158370895, 21329909543800), (197, 207792605062, 2264532819660879),
  (182, 62534354989, 2544800585526019), (219, 134188738340, 2830666024576099),
  (168, 620806483822, 2714728507176339), (156, 391999448441, 3285861374281979),
  (160, 579377449410, 5270549724824299), (153, 433936015634, 158907289528380),
  (161, 480105233203, 2386914603738740), (148, 197575825359, 7260237737557039),
  (145, 596024756685, 1476523904326980), (129, 416213277137, 2396913928119580),
  (135, 386775437070, 5122020654153979), (140, 366642468738, 2555821217647960),
  (108, 139723983534, 5058673338786459), (115, 15124159675, 2630120223701220),
  (113, 498137485250, 7937308797681599), (115, 305230359467, 5328518483524180),
  (99, 399635236807, 5672775978020720), (99, 384242768306, 8392504147387479),
  (93, 204998627084, 2606823338067440), (92, 8628005998, 31305483769889036),
  (94, 430968259383, 12933013715577759), (85, 301984486981, 5323518821333759),
  (105, 532363189985, 723867559160000), (95, 224093904831, 1931719254032860),
  (99, 100218248773, 2953047808653960), (75, 540269356209, 2609178447693220),
  (74, 431017375756, 233319639287200), (86, 78555390902, 5783713833230060),
  (81, 95889229790, 2610757290247399), (85, 328561166885, 1243204265039780),
  (70, 355533072657, 1352175144159140), (78, 27707431029, 3741056723987860),
  (63, 65828525440, 11001294461544899), (64, 268437002997, 4307189928903080),
  (67, 389216578780, 2608402180621620), (64, 275958867988, 4085314218484400),
  (61, 577836694481, 1256615169998280), (69, 344813862795, 1021328554621100),
  (60, 79452201416, 5313140602475700), (63, 502106928248, 9869028051714458),
  (63, 249160532665, 7879340038981718), (59, 15541098170, 3630118868778519),
  (56, 101839356017, 2767697603685800), (53, 155958841442, 4995704917896160),
  (52, 514041028675, 5215613652224860), (52, 115062443564, 2620234243025941),
  (52, 53687576880, 7730810968311399), (48, 160851837486, 2523470675982219),
  (48, 519507775798, 4873323133818299), (53, 549113976101, 2566130495069820),
  (46, 518676728087, 7720432749453338), (44, 497145613800, 2597346385288896),
  (54, 32708522231, 2587460404613620), (42, 221900478384, 5217968761850640),
  (45, 252716095523, 10329223063610759), (48, 48944876530, 5164611531805379),
  (39, 625275173960, 4762385278608960), (41, 281015791586, 4196252073693740),
  (37, 501445357044, 2608078959457339), (38, 608585317961, 7932309135491178)]

/-- `vsop87d_dict.py` 2350-2449. -/
def mercuryL2_1 : List (ℕ × ℕ × ℕ) := [
  (43, 324574920597, 5238910537858640), (41, 243000457106, 63989728631400),
  (39, 76157461206, 8281566292178139), (34, 328090243752, 6238909182935939),
  (37, 5738918168, 3851994579197200), (35, 578457148656, 6805042387851159),
  (40, 314856042352, 42659819087600), (42, 409553132731, 5219547604404819),
  (32, 245518077222, 3865405484155699), (39, 180165134294, 3332657873317420),
  (41, 432141055637, 2609501668857500), (32, 372358129034, 13610084775702319),
  (40, 569015360764, 3174923519072640), (32, 165828846012, 10546099111839019),
  (32, 102549984810, 15541804029735178), (30, 157915654792, 5216869273614759),
  (31, 69335015231, 5005704242277000), (33, 404678616141, 5561838122811380),
  (29, 372464718175, 5153590899683439), (29, 573654447860, 12938013377768178),
  (38, 374472554242, 1884922754997420), (28, 305059885517, 33914274084046457),
  (35, 74194291507, 5217192494779040), (28, 73918545262, 788008915333899),
  (36, 126742819742, 5111642435295920), (35, 529298143160, 4540509568190280),
  (32, 579438282818, 1809337469954999), (26, 579318346346, 6694104532641819),
  (28, 427104078603, 5439456338733519), (24, 506304791610, 211876386037840),
  (30, 105420470769, 5218291983014920), (25, 175996910240, 12477818365871879),
  (22, 443631488516, 332813565628019), (22, 509106835544, 9979965906923798),
  (22, 188199362566, 7824403966382280), (21, 256123211200, 9413832702008578),
  (25, 546150069597, 10488130353139139), (25, 5236467599, 2651450133245020),
  (25, 302983070039, 7773401845962799), (20, 348966334599, 10339601282468818),
  (21, 397495995227, 5376487917843220), (18, 107895331282, 2842109953444620),
  (19, 198308917333, 2375470674870219), (18, 458631365960, 7604495232053580),
  (19, 290042907299, 628307584999140), (19, 318954246101, 5110931080595839),
  (18, 211231697626, 7371175592766379), (17, 6118735536, 8847699497093359),
  (18, 626984143774, 1587461759536320), (18, 258820345674, 5112353789995999),
  (17, 582864656129, 3237097899156560), (18, 522519288335, 7826759076008058),
  (15, 543053381026, 6474195798313119), (15, 253107093357, 15546803691925599),
  (20, 440959528115, 122381784077861), (15, 405461375332, 5196250718771040),
  (15, 352769852262, 7921930916633119), (15, 45988103836, 16218875089859738),
  (15, 87152359342, 7828337918562238), (14, 187990160627, 12588756221081219),
  (16, 282759858554, 10541099449648599), (13, 467219046898, 7825659587772179),
  (16, 4901690153, 7847700852016058), (14, 421146699511, 5229024557183361),
  (14, 408726245298, 7827082297172339), (15, 380902990348, 3396799229491319),
  (16, 28761005157, 4493713069154840), (14, 584330605810, 10382192160120218),
  (15, 603738264520, 1365586049117640), (12, 81685952408, 8170628436968799),
  (15, 379894620695, 10890356606335558), (11, 326651828162, 5260240447402440),
  (11, 128755195884, 2941603879785439), (11, 403185618461, 18150594343892598),
  (11, 558448046140, 12022623016165999), (12, 32316787548, 9178546086631398),
  (13, 202636565149, 7149299882347698), (15, 356357453844, 7667463652943878),
  (13, 380590035776, 7825982808936459), (10, 4109363791, 7719721394753258),
  (10, 600753285175, 36523064398203876), (10, 174642821988, 5206136699446317),
  (13, 279229719351, 63699627202420), (11, 552780687723, 2672780042788820),
  (11, 404728142335, 4589273043315699), (8, 496985130540, 15197546535238638),
  (8, 344547998787, 2343944831610119), (11, 254429302352, 4418127784112419),
  (10, 350274229100, 6569755772473979), (9, 245809063705, 9302894846799239),
  (9, 492568932060, 10433194280539699), (8, 80535713418, 7198063357473118),
  (10, 220026830808, 13096920667296558), (7, 230885367448, 1820781398823521),
  (10, 572020107388, 7721144104153418), (7, 15536656581, 12948391596626239),
  (8, 231255848253, 5845888213313979), (7, 207713892797, 9082986112470538),
  (7, 350101836609, 11787336400788819), (7, 320275960823, 6460784893354619)]

/-- `vsop87d_dict.py` 2450-2549. -/
def mercuryL2_2 : List (ℕ × ℕ × ℕ) := [
  (7, 473829767381, 5132260990139639), (7, 565553946700, 18155594006083018),
  (9, 256870006051, 12990982474277639), (8, 67171808844, 7985278232000639),
  (7, 406204756163, 3960965458316560), (7, 146575838897, 85319638175200),
  (7, 257400610109, 6915980243060499), (6, 386283147263, 5941448187474840),
  (6, 133545681950, 10213285546210999), (7, 280506785787, 3974376363275060),
  (6, 166711581835, 2820666700195260), (8, 473806237855, 15086608680029298),
  (6, 81325444169, 20759384658050018), (6, 6925555540, 5894651688439399),
  (6, 309908354288, 11456489811250778), (6, 88473087003, 10435872611329758),
  (6, 351715962887, 18827665404017158), (6, 413083556162, 5450900267602040),
  (6, 314680331401, 10456491166173479), (7, 589465282471, 13149889763806018),
  (5, 27174681491, 14396126714946238), (5, 525316838887, 334061242669980),
  (7, 199860349328, 10435549390165479), (5, 147362369989, 910390699411760),
  (7, 60725013988, 6005589543648739), (5, 320081630256, 1354142120249119),
  (6, 50137409605, 6349847038145279), (5, 507739475360, 9758090196505119),
  (5, 135632842517, 10434449901929598), (5, 216611734526, 10392501437542078),
  (5, 404581717475, 9806853671630539), (5, 490166806916, 2275976748529401),
  (5, 387246722733, 8958637352302698), (5, 301510200596, 10328511708910679),
  (6, 144791474080, 7805041032928458), (5, 247831218420, 2624168195205900),
  (5, 385799454501, 10779418751126219), (5, 57300969993, 13499146920492979),
  (5, 238724530268, 14631413330323418), (4, 611121027497, 9069575207512038),
  (4, 183181231470, 7482113447975718), (4, 523938469806, 13001291751699499),
  (5, 118020888905, 2731172098235281), (5, 300001411726, 8503442002596818),
  (5, 556662713374, 15599772788435058), (5, 235342507828, 14520475475114079),
  (4, 457119707855, 15763679740153858), (4, 578384635962, 5174209454527159),
  (4, 241778026187, 15748301859105378), (5, 253226316949, 10329934418310839),
  (4, 371458526250, 2655586813192860), (4, 383639975710, 15024434299945379),
  (4, 330201863644, 7614494556434419), (4, 68904721853, 12415643985787958),
  (4, 173206522989, 17806336849396059), (5, 320991489892, 7102503383312259),
  (5, 369408876581, 10594068546158058), (4, 275867944254, 39131854712361297),
  (5, 53586068200, 8048246652890938), (4, 507565982849, 5175632163927320),
  (4, 12462379137, 7869030761559859), (4, 525512859919, 15705710981453978),
  (4, 566367904256, 938484100807520), (4, 470366039546, 5429457014352679),
  (4, 474767635950, 20415127163553478), (3, 324177385660, 15557181910783658),
  (3, 85377908455, 1606606586147480), (3, 158566666033, 13022621661243298),
  (4, 558218314089, 11911685160956658), (4, 94898112028, 7837814871340781),
  (4, 615781348253, 9711293697469679), (4, 231787867435, 5281570356946240),
  (4, 273401660736, 7841748823520739), (4, 567762508473, 18367470392120858),
  (4, 21138526735, 21436455718174578), (4, 524311464709, 11691776426627958),
  (3, 386634858823, 10437128232719658), (4, 542881221134, 23373174634397858),
  (3, 197251042531, 18314501295611398), (3, 60740481915, 13388209065283638),
  (3, 623399386415, 18165972224941078), (4, 622336284288, 14065280125408198),
  (3, 594876130841, 2503563475838580), (3, 383428144879, 23368174972207438),
  (3, 232902857669, 18208563102592478), (3, 284354681160, 12320084011627098),
  (3, 153933182823, 17695398994186718), (4, 245893471155, 20764384320240439),
  (3, 572001402121, 10276253967101299), (4, 140880562474, 8038247328510099),
  (3, 490489886883, 5174920809227239), (3, 476799924569, 10413831347085879),
  (4, 626291139255, 2502140766438420), (3, 40352872921, 13202858860315479),
  (3, 266696150741, 15758680077963437), (3, 523202292846, 8454678527471398),
  (3, 459428408981, 13154889425996438), (3, 253649995681, 5057961984086379),
  (3, 255542640702, 7782999768684579), (4, 167304824627, 13041984594697120)]

/-- `vsop87d_dict.py` 2550-2644. -/
def mercuryL2_3 : List (ℕ × ℕ × ℕ) := [
  (3, 621862713072, 9524770557217918), (3, 537878648081, 4429571712980940),
  (3, 468342323732, 15650774908854539), (3, 336164307862, 10477821075717278),
  (3, 291632245418, 16674070439565618), (2, 72039482289, 799452844202420),
  (2, 543309839263, 7890360671103658), (2, 112849064703, 18372470054311278),
  (3, 194668130835, 14300566740785378), (3, 56289392960, 10434773123093879),
  (2, 178482957305, 15653130018480319), (3, 503542424850, 13044339704322898),
  (3, 472735160431, 7814927013603736), (2, 531651763274, 20817353416749898),
  (3, 536470448658, 13139511544947959), (2, 6581745526, 19613707343261078),
  (2, 293678015526, 16785008294774959), (2, 584781134233, 6583166677432480),
  (2, 556634055777, 7026918098269838), (2, 542145220392, 18357092173262799),
  (2, 606636386319, 5324230176033840), (2, 437154457896, 12822075860368418),
  (2, 35903300236, 18716727548807819), (2, 278347515438, 7933020490191258),
  (2, 451952536661, 20304189308344138), (2, 336865001265, 17004917029103659),
  (2, 308184453618, 5059384693486539), (2, 432534428501, 5550394193942859),
  (2, 181636961816, 11063468841628819), (2, 558793955981, 10391790082841998),
  (2, 579409172557, 41740645026518717), (2, 85923934181, 23590050682626116),
  (2, 460084058009, 2694109952332620), (2, 514995676460, 18218872380014337),
  (2, 391756419842, 13044662925487179), (2, 288997273266, 2715439861876420),
  (3, 585721944439, 5232958509363319), (2, 610145799164, 7762381213840858),
  (2, 198246165585, 7784422478084739), (2, 11071759480, 13086611389874699),
  (2, 64849171165, 5264377127350280), (2, 398410950717, 10446605185498200),
  (2, 183715639115, 12366880510662538), (2, 561305711026, 7666752298243798),
  (2, 583992902277, 1980482729158280), (2, 54331921743, 13045918546877075),
  (2, 997429525, 14176217980617538), (2, 559377744943, 3519181013569180),
  (2, 39746661127, 2652161487945100), (2, 616192704020, 13065281480330898),
  (2, 85416063806, 2593412433108940), (2, 218339110714, 15610082065856918),
  (2, 439281517355, 13043240216087017), (2, 550117730009, 17240203644480839),
  (1, 349234867738, 13043563437251298), (1, 480995492080, 7783711123384659),
  (2, 626921260007, 8736761641884019), (2, 279561490409, 11567427666460119),
  (2, 492122664455, 2486408530079559), (1, 241576832330, 2603790651966999),
  (1, 604596837149, 12937302023068098), (2, 94020572434, 8059690581759460),
  (2, 30073776192, 5163900177105299), (1, 18846827752, 3408243158359840),
  (1, 362844435085, 16107937234650398), (2, 513133615893, 4984260989027639),
  (1, 30832555285, 5322807466633679), (1, 556519625382, 12938724732468258),
  (1, 563110777945, 4684833017476560), (1, 138420566741, 2601163707029860),
  (1, 586450783334, 2672489941359840), (1, 614517818644, 7668175007643958),
  (1, 319299019423, 2565419140369739), (1, 34495954566, 12885044281258718),
  (1, 360230008239, 2076042703319140), (1, 580015495751, 1940667828817460),
  (1, 442116052212, 10090903762133139), (1, 48535289275, 5269838370124219),
  (1, 622940855233, 11159028815789679), (1, 16055219324, 10530721230790539),
  (1, 219795772042, 2942851556827400), (1, 509783503526, 10223284870591838),
  (1, 61014627166, 2566841849769900), (1, 562459774786, 2556532572348040),
  (1, 90991571866, 10371171527998279), (1, 28037611495, 2545090686955000),
  (1, 54824728173, 2613789976347840), (1, 425324476801, 20981260368468695),
  (1, 8089899001, 5154302254383520), (1, 33953378597, 5152879544983359),
  (1, 415667461533, 2555109862947879), (1, 159597814656, 7293623331633979),
  (1, 559362222240, 2561993815121980), (1, 326520760555, 24045246032331996),
  (1, 552286605071, 5212580966124419)]

/-- `vsop87d_dict.py` 2249-2645. -/
def mercuryL2 : List (ℕ × ℕ × ℕ) := List.flatten [
  mercuryL2_0, mercuryL2_1, mercuryL2_2, mercuryL2_3]

/-- `vsop87d_dict.py` 2647-2746. -/
def mercuryL3_0 : List (ℕ × ℕ × ℕ) := [
  (188077, 3466830117, 5217580628314840), (142152, 312505452600, 2608790314157420),
  (96877, 300378171915, 7826370942472259), (43669, 601867965826, 10435161256629678),
  (35395, 0, 0), (18045, 277538373991, 13043951570787099),
  (6971, 581808665742, 15652741884944518), (2556, 257014364454, 18261532199101939),
  (900, 559308888939, 20870322513259358), (307, 232189002493, 23479112827416777),
  (117, 316567324160, 2497852458948080), (102, 532134064237, 26087903141574195),
  (77, 624155593431, 5106642773105500), (57, 611222330831, 2719728169366760),
  (34, 203244612467, 28696693455731616), (38, 299912912226, 7715433087262919),
  (31, 311483471984, 5328518483524180), (17, 602950226714, 10324223401420339),
  (11, 500109293882, 31305483769889036), (9, 59396483404, 2042657109242200),
  (9, 365190477342, 4651447423399620), (9, 628305510644, 7937308797681599),
  (8, 274138109305, 12933013715577759), (7, 579018632644, 2513230339996560),
  (5, 33554769835, 7260237737557039), (5, 131115810350, 2661759410666880),
  (4, 246414914425, 5122020654153979), (4, 174528964721, 33914274084046457),
  (4, 431141963105, 5270549724824299), (4, 307093349506, 2704350288318280),
  (4, 568013701250, 3063985663863300), (3, 580662640937, 15541804029735178),
  (3, 464519088060, 2714728507176339), (4, 302893592955, 2386914603738740),
  (3, 435199345075, 7932309135491178), (3, 129040630287, 5323518821333759),
  (3, 434017676059, 1476523904326980), (3, 286652251194, 10546099111839019),
  (3, 623875368963, 2830666024576099), (3, 337815322354, 9869028051714458),
  (2, 537466119262, 11001294461544899), (2, 16040583556, 5058673338786459),
  (2, 35038889636, 1931719254032860), (2, 623271649650, 4995704917896160),
  (2, 252219274566, 18150594343892598), (2, 505358903232, 16218875089859738),
  (2, 15071040297, 12477818365871879), (2, 229024350361, 5672775978020720),
  (2, 42411179784, 7149299882347698), (2, 611262694468, 5783713833230060),
  (2, 217198531948, 10890356606335558), (2, 292723030315, 5439456338733519),
  (2, 240411188609, 8392504147387479), (2, 343613336205, 7826759076008058),
  (2, 477873510695, 36523064398203876), (2, 354043808451, 6474195798313119),
  (2, 160502923885, 7773401845962799), (2, 311800510932, 15086608680029298),
  (2, 102098746090, 7879340038981718), (2, 439439085682, 8847699497093359),
  (2, 149912329404, 4307189928903080), (2, 196277160647, 2555821217647960),
  (2, 476774165204, 7720432749453338), (2, 61066658116, 15546803691925599),
  (2, 526875308161, 7730810968311399), (2, 52736095020, 9413832702008578),
  (2, 205793854229, 10339601282468818), (2, 412698349577, 6694104532641819),
  (2, 543336870762, 7828337918562238), (2, 197520131105, 13610084775702319),
  (2, 554343111585, 8170628436968799), (2, 125444219651, 4085314218484400),
  (2, 107684180123, 10329223063610759), (1, 323979322492, 5215613652224860),
  (2, 533834891475, 5218291983014920), (2, 336867866204, 9979965906923798),
  (2, 540697906670, 8281566292178139), (1, 580853057947, 455195349705880),
  (1, 495909385120, 12948391596626239), (1, 317481245588, 7667463652943878),
  (1, 153803169600, 5238910537858640), (1, 248052961456, 5376487917843220),
  (1, 120843095195, 10541099449648599), (2, 364576833526, 4540509568190280),
  (2, 400710217385, 10488130353139139), (1, 309532094520, 7604495232053580),
  (1, 552119023864, 5894651688439399), (2, 553036712466, 13154889425996438),
  (1, 38352295948, 5217968761850640), (1, 8902944955, 5111642435295920),
  (1, 147514166670, 6238909182935939), (1, 420864838814, 13149889763806018),
  (1, 288161012078, 7921930916633119), (1, 503155341199, 5164611531805379),
  (1, 5873279909, 5313140602475700), (1, 60647620600, 3865405484155699),
  (1, 158007357234, 39131854712361297), (1, 68687557696, 13096920667296558),
  (1, 390367213586, 12938013377768178), (1, 211138180302, 3285861374281979)]

/-- `vsop87d_dict.py` 2747-2799. -/
def mercuryL3_1 : List (ℕ × ℕ × ℕ) := [
  (1, 18542211423, 7824403966382280), (1, 124063083423, 910390699411760),
  (1, 178547815249, 18827665404017158), (1, 94125502564, 9302894846799239),
  (1, 241309932759, 5561838122811380), (1, 229683748973, 5219547604404819),
  (1, 339284109553, 2502852121138500), (1, 429717383023, 2630120223701220),
  (1, 610639166059, 10213285546210999), (1, 458189329524, 3741056723987860),
  (1, 616145880062, 12588756221081219), (1, 522010441376, 5217192494779040),
  (1, 595645110567, 8048246652890938), (1, 481981872221, 2610757290247399),
  (1, 427546069271, 3630118868778519), (1, 243374991272, 5153590899683439),
  (1, 403088051207, 110937855209340), (1, 560495524983, 20759384658050018),
  (1, 489918476796, 3519181013569180), (1, 607747011982, 2767697603685800),
  (1, 548361013686, 2953047808653960), (1, 15288602386, 2544800585526019),
  (1, 218342825402, 6349847038145279), (1, 367054321453, 2153594964451540),
  (1, 149815422727, 2608402180621620), (1, 175551273491, 2609501668857500),
  (1, 260061927559, 1256615169998280), (1, 269537843932, 5229024557183361),
  (1, 487760109673, 2587460404613620), (1, 282170820105, 2609178447693220),
  (1, 20736391933, 5206136699446317), (1, 382330817663, 6805042387851159),
  (1, 442501613287, 2264532819660879), (1, 601128227925, 5216869273614759),
  (1, 28595674172, 1132266409830440), (1, 586280830053, 2620234243025941),
  (1, 342109354799, 2597346385288896), (1, 30050065300, 4196252073693740),
  (1, 273414310032, 2503563475838580), (1, 172346523407, 5196250718771040),
  (1, 477297529316, 7847700852016058), (1, 584491832575, 5005704242277000),
  (1, 322072290870, 2502140766438420), (1, 474388045372, 2651450133245020),
  (1, 431760630574, 6915980243060499), (1, 65529515413, 42659819087600),
  (0, 196307435492, 105938193018920), (1, 558694327783, 7985278232000639),
  (0, 384680432548, 2608078959457339), (1, 607111696987, 10276253967101299),
  (0, 59142287644, 7371175592766379), (1, 584438975852, 10530721230790539),
  (1, 282906439989, 2449883024629040)]

/-- `vsop87d_dict.py` 2646-2800. -/
def mercuryL3 : List (ℕ × ℕ × ℕ) := List.flatten [
  mercuryL3_0, mercuryL3_1]

/-- `vsop87d_dict.py` 2802-2829. -/
def mercuryL4_0 : List (ℕ × ℕ × ℕ) := [
  (114078, 314159265359, 0), (3247, 202848007619, 2608790314157420),
  (1914, 141731803758, 7826370942472259), (1727, 450137643801, 5217580628314840),
  (1237, 449970181057, 10435161256629678), (645, 126591776986, 13043951570787099),
  (298, 430600984981, 15652741884944518), (128, 105702505039, 18261532199101939),
  (51, 408566191934, 20870322513259358), (20, 82130394681, 23479112827416777),
  (8, 382199615635, 26087903141574195), (3, 54824060574, 28696693455731616),
  (2, 352134138964, 31305483769889036), (1, 167435118540, 2497852458948080),
  (2, 460718203612, 5106642773105500), (1, 111396201203, 12933013715577759),
  (1, 435040700322, 10324223401420339), (1, 417434865844, 7937308797681599),
  (1, 120388630609, 7715433087262919), (1, 484677084740, 2719728169366760),
  (1, 29913093643, 33914274084046457), (0, 411587125815, 15541804029735178),
  (0, 73293870976, 4651447423399620), (0, 368822427283, 2153594964451540),
  (0, 383816920045, 2042657109242200), (0, 473086078962, 105938193018920),
  (0, 40939402954, 2449883024629040), (0, 330678220146, 36523064398203876)]

/-- `vsop87d_dict.py` 2801-2830. -/
def mercuryL4 : List (ℕ × ℕ × ℕ) := mercuryL4_0

/-- `vsop87d_dict.py` 2832-2844. -/
def mercuryL5_0 : List (ℕ × ℕ × ℕ) := [
  (877, 314159265359, 0), (59, 337513289692, 5217580628314840),
  (42, 2433099382, 7826370942472259), (43, 465071406046, 2608790314157420),
  (31, 298112204944, 10435161256629678), (19, 600992467582, 13043951570787099),
  (10, 275699791920, 15652741884944518), (5, 579082359724, 18261532199101939),
  (2, 251435448230, 20870322513259358), (1, 549411470932, 23479112827416777),
  (1, 223688504668, 26087903141574195), (1, 518718589133, 28696693455731616),
  (0, 211315496491, 31305483769889036)]

/-- `vsop87d_dict.py` 2831-2845. -/
def mercuryL5 : List (ℕ × ℕ × ℕ) := mercuryL5_0

/-- `vsop87d_dict.py` 25-2846 `_planets[("Mercury", "L")]`. -/
def mercuryL : List (List (ℕ × ℕ × ℕ)) :=
  [mercuryL0, mercuryL1, mercuryL2, mercuryL3, mercuryL4, mercuryL5]

/-- `vsop87d_dict.py` 2849-2948. -/
def mercuryB0_0 : List (ℕ × ℕ × ℕ) := [
  (11737528962, 198357498767, 2608790314157420), (2388076996, 503738959685, 5217580628314840),
  (1222839532, 314159265359, 0), (543251810, 179644363963, 7826370942472259),
  (129778770, 483232503961, 10435161256629678), (31866927, 158088495667, 13043951570787099),
  (7963301, 460972126348, 15652741884944518), (2014189, 135324164694, 18261532199101939),
  (513953, 437835409309, 20870322513259358), (207674, 491772564073, 2719728169366760),
  (208584, 202020294153, 2497852458948080), (132013, 111908492283, 23479112827416777),
  (100454, 565684734206, 2042657109242200), (121395, 181271752059, 5328518483524180),
  (91566, 228163128692, 2502852121138500), (99214, 9391887097, 5111642435295920),
  (94574, 124184909234, 3174923519072640), (78785, 440725880000, 5783713833230060),
  (77747, 52557061749, 105938193018920), (84264, 508510388314, 5106642773105500),
  (49948, 349752993688, 566133204915220), (46454, 323739270829, 7720432749453338),
  (44767, 487849816734, 7937308797681599), (40766, 246558332165, 4651447423399620),
  (37378, 445768797944, 455195349705880), (34082, 414209210575, 26087903141574195),
  (35911, 109057317869, 110937855209340), (31953, 118516389747, 8392504147387479),
  (30954, 350328027210, 2153594964451540), (31808, 241474588439, 4762385278608960),
  (28691, 184828614269, 7715433087262919), (25765, 277593370583, 2704350288318280),
  (25199, 359062266460, 2714728507176339), (20244, 306833797229, 5164611531805379),
  (18591, 558427274440, 7371175592766379), (16971, 2791276551, 10329223063610759),
  (20099, 406593040301, 2513230339996560), (17002, 613739392193, 4196252073693740),
  (14984, 164717994813, 10546099111839019), (14186, 33074185469, 1021328554621100),
  (15577, 607693643204, 5313140602475700), (15795, 379629547258, 52969096509460),
  (14011, 552786452723, 7260237737557039), (12309, 316626298867, 1476523904326980),
  (11261, 11326534696, 1352175144159140), (12448, 405109331029, 3960965458316560),
  (13044, 348016433624, 3741056723987860), (11042, 423192662377, 11001294461544899),
  (11152, 55658461820, 6349847038145279), (10717, 153686240986, 2566130495069820),
  (10213, 287881017166, 1256615169998280), (9924, 94824584866, 6569755772473979),
  (11047, 579741510309, 5174920809227239), (10460, 582962163777, 5058673338786459),
  (9774, 166271762650, 2449883024629040), (9412, 182364886045, 1587461759536320),
  (12866, 481650804018, 3063985663863300), (9123, 488604394110, 10324223401420339),
  (9011, 104262074744, 42659819087600), (8735, 304132552652, 6805042387851159),
  (8491, 105130498445, 158907289528380), (8835, 88128343813, 28696693455731616),
  (8823, 581343662067, 1132266409830440), (8196, 84015129448, 5122020654153979),
  (7640, 343584035231, 3630118868778519), (9175, 616059719071, 7773401845962799),
  (8897, 39691733779, 5323518821333759), (7253, 237179970828, 9979965906923798),
  (7104, 573557153523, 2661759410666880), (8322, 527157128800, 2555821217647960),
  (6578, 266741925057, 5270549724824299), (5825, 625072627414, 3332657873317420),
  (5625, 308030000230, 12938013377768178), (5295, 135863387771, 4589273043315699),
  (5116, 267576280851, 7667463652943878), (5035, 266614676257, 7783711123384659),
  (4762, 468983196238, 13154889425996438), (5714, 287339047644, 7921930916633119),
  (5601, 537190885150, 95559974160860), (4965, 347619946892, 5941448187474840),
  (5468, 143781223143, 5672775978020720), (4080, 401667499000, 9178546086631398),
  (3971, 544452771841, 628307584999140), (4063, 564291749144, 2606823338067440),
  (3877, 360887633874, 8958637352302698), (4047, 595235957644, 3865405484155699),
  (4064, 146283079734, 2610757290247399), (3681, 47365215122, 6238909182935939),
  (4247, 623163402945, 4085314218484400), (3694, 275543227024, 723867559160000),
  (3348, 591868911857, 4307189928903080), (4475, 228937952702, 9869028051714458),
  (3115, 74943919509, 3285861374281979), (3100, 335203735852, 1980482729158280),
  (3215, 611374633777, 9413832702008578), (3558, 98820289555, 13610084775702319),
  (2908, 406284172838, 2651450133245020), (2799, 163602212056, 12933013715577759),
  (2800, 388358619611, 7730810968311399), (2680, 448235268618, 7198063357473118)]

/-- `vsop87d_dict.py` 2949-3048. -/
def mercuryB0_1 : List (ℕ × ℕ × ℕ) := [
  (2767, 412700796923, 2767697603685800), (3285, 39398081520, 1884922754997420),
  (3290, 293487892542, 10382192160120218), (3048, 67698362024, 910390699411760),
  (2484, 542332204960, 12588756221081219), (2663, 170280488847, 1698399614745660),
  (2791, 276839978418, 2609178447693220), (2747, 575135788288, 1931719254032860),
  (2676, 573635682216, 7879340038981718), (2710, 431274902720, 5894651688439399),
  (2877, 345410696457, 7932309135491178), (2787, 434025817469, 2608402180621620),
  (2097, 209090732812, 2386914603738740), (2297, 390321251530, 31305483769889036),
  (2535, 305170623483, 6915980243060499), (2211, 465120210900, 2830666024576099),
  (1912, 578403850812, 10276253967101299), (2265, 334478937379, 2264532819660879),
  (1817, 574251490625, 10392501437542078), (1961, 594577427093, 10530721230790539),
  (1922, 443763124338, 8281566292178139), (1667, 451887419928, 5219547604404819),
  (1771, 612278757535, 15546803691925599), (1515, 172458115830, 5439456338733519),
  (1585, 23900687506, 8550238501632259), (1477, 473359545019, 2953047808653960),
  (1469, 144574704924, 15763679740153858), (1653, 241345886386, 5215613652224860),
  (1377, 59981573116, 2608078959457339), (1430, 78416943990, 11787336400788819),
  (1680, 342684715134, 677071060124560), (1604, 452048871587, 344257494496540),
  (1345, 31857167988, 5153590899683439), (1357, 317349203273, 2587460404613620),
  (1250, 233380858079, 2544800585526019), (1196, 209277609512, 4873323133818299),
  (1194, 36376300747, 11567427666460119), (1443, 273186009497, 6474195798313119),
  (1375, 532672767568, 12477818365871879), (1325, 357805811914, 8847699497093359),
  (1115, 26092087309, 63989728631400), (1094, 222755234371, 3237097899156560),
  (1433, 303965981318, 6694104532641819), (1370, 345924813827, 4493713069154840),
  (1003, 28769164324, 2593412433108940), (1136, 111057140999, 5217192494779040),
  (1000, 52457514920, 2624168195205900), (1033, 255563840213, 4540509568190280),
  (1096, 501257889902, 711354700080), (1146, 540631829059, 21329909543800),
  (1080, 597835772937, 12990982474277639), (988, 125815251981, 9806853671630539),
  (1062, 288132742088, 12022623016165999), (892, 63710475446, 10339601282468818),
  (1041, 89365572198, 5260240447402440), (978, 93067667928, 5376487917843220),
  (1136, 582023159264, 5217968761850640), (838, 466556603681, 15541804029735178),
  (910, 553568417425, 5845888213313979), (834, 516159172473, 4995704917896160),
  (1100, 402157761190, 16218875089859738), (805, 103425281191, 2396913928119580),
  (835, 528205659749, 5005704242277000), (891, 21542628779, 10541099449648599),
  (743, 86945390288, 5238910537858640), (783, 332304812554, 2630120223701220),
  (711, 157780048955, 211876386037840), (801, 218220012579, 15197546535238638),
  (915, 171247948367, 5196250718771040), (832, 553506450006, 7482113447975718),
  (750, 216183196338, 5216869273614759), (923, 250170936928, 10488130353139139),
  (727, 605394635764, 9524770557217918), (640, 271738158564, 13139511544947959),
  (628, 143868691098, 5561838122811380), (622, 346102298068, 7762381213840858),
  (825, 100561540075, 8503442002596818), (611, 99677911598, 221875710418680),
  (605, 468164610499, 5218291983014920), (646, 257803910757, 12885044281258718),
  (621, 116576338077, 10890356606335558), (651, 160040223342, 2609501668857500),
  (599, 251123620954, 13001291751699499), (570, 127714994259, 7828337918562238),
  (616, 288990323867, 5202624308601380), (553, 517654422678, 2593833994443960),
  (560, 332834155275, 5110931080595839), (538, 474592892110, 8048246652890938),
  (514, 552495783925, 2502140766438420), (512, 212021253064, 2503563475838580),
  (545, 131029342517, 2655586813192860), (475, 405390077061, 14956319713460),
  (464, 326222495894, 11159028815789679), (460, 534048307893, 4684833017476560),
  (550, 584636069235, 2561993815121980), (447, 357688571640, 106649547719000),
  (550, 622077946049, 5112353789995999), (596, 64492352990, 33914274084046457),
  (484, 316177806139, 3851994579197200), (441, 67395966884, 105226838318840)]

/-- `vsop87d_dict.py` 3049-3148. -/
def mercuryB0_2 : List (ℕ × ℕ × ℕ) := [
  (477, 22606306742, 7102503383312259), (423, 208215220948, 7614494556434419),
  (472, 335508518254, 3519181013569180), (418, 357908956341, 5232958509363319),
  (441, 491196768491, 7805041032928458), (440, 447866581814, 18372470054311278),
  (435, 198197259533, 2609453170047421), (564, 545416215614, 7824403966382280),
  (540, 287570725847, 18155594006083018), (450, 609063658976, 9302894846799239),
  (461, 382361162048, 14396126714946238), (408, 334314470563, 5202202747266360),
  (412, 207516355558, 15086608680029298), (435, 512507754577, 2608127458267419),
  (409, 56822912556, 6460784893354619), (388, 416039183226, 7825982808936459),
  (393, 323715146834, 1365586049117640), (375, 533297275541, 2601163707029860),
  (467, 577388878977, 9082986112470538), (350, 562301652558, 7149299882347698),
  (352, 327694758804, 2672780042788820), (350, 339302729957, 14176217980617538),
  (390, 258800166779, 7826759076008058), (365, 319925143022, 5209954021187280),
  (433, 155185163390, 2076042703319140), (327, 569228054184, 1243204265039780),
  (339, 158088572820, 4549458142974879), (338, 273161573173, 15599772788435058),
  (315, 400061444247, 7847700852016058), (435, 36408526333, 11456489811250778),
  (344, 502616143626, 7825659587772179), (346, 414121333484, 11112232316754239),
  (286, 540513646014, 668122485339960), (283, 365516534367, 7626607127560),
  (325, 430412080460, 12415643985787958), (364, 232771554672, 8454678527471398),
  (331, 76882559900, 18827665404017158), (267, 381778097058, 1940667828817460),
  (270, 602010732963, 7811414622758799), (273, 366726180240, 12948391596626239),
  (263, 18743596408, 7719721394753258), (268, 325051884036, 13149889763806018),
  (284, 193848296863, 7604495232053580), (295, 553951004419, 13096920667296558),
  (335, 592048177497, 14631413330323418), (246, 145343047775, 7827082297172339),
  (259, 308241704780, 7721144104153418), (253, 286398164134, 12133560871375339),
  (338, 395823396010, 7869030761559859), (317, 398138369220, 7985278232000639),
  (232, 466776441683, 2820666700195260), (247, 140414696612, 18150594343892598),
  (228, 25677390582, 10371171527998279), (219, 469799359762, 7158248457132299),
  (221, 446394113791, 8170628436968799), (254, 143735157085, 532747610838280),
  (199, 576674433704, 15748301859105378), (253, 247481215159, 7293623331633979),
  (191, 417749403686, 13499146920492979), (246, 521552773120, 17806336849396059),
  (182, 431488794636, 10437128232719658), (206, 162004139707, 10657036967048359),
  (234, 218979921440, 10090903762133139), (176, 358325574282, 4883519385644859),
  (188, 258568452037, 5170784129279399), (177, 189461095130, 5216917772424839),
  (168, 301264496377, 2375470674870219), (222, 435573235377, 5264377127350280),
  (169, 525194313253, 10223284870591838), (188, 555333225508, 15610082065856918),
  (163, 172109994467, 10413831347085879), (205, 564507146979, 15493834595416138),
  (161, 6514575292, 7818744335344699), (155, 329540644622, 9711293697469679),
  (152, 166425291176, 2565419140369739), (179, 220248310353, 10433194280539699),
  (157, 591615237188, 5174209454527159), (176, 503409571975, 5218243484204840),
  (145, 34814763869, 7841748823520739), (151, 84016182050, 2623746633870879),
  (143, 36102957131, 2715439861876420), (142, 587490895177, 2603790651966999),
  (167, 443520444137, 2566841849769900), (137, 285089329350, 11911685160956658),
  (161, 591020381915, 20764384320240439), (130, 626801612444, 13767819129947099),
  (130, 93376066695, 43371173787680), (140, 122522976768, 2613789976347840),
  (144, 456326656247, 41948464387520), (145, 253141564902, 11691776426627958),
  (145, 374606280935, 2714017152476259), (155, 365976494728, 36523064398203876),
  (124, 92716868075, 10434773123093879), (140, 11287334170, 7810993061423779),
  (126, 113823138141, 5132260990139639), (146, 325675289634, 334061242669980),
  (122, 510611624534, 17695398994186718), (125, 563666753628, 10435549390165479),
  (155, 230861381490, 5175632163927320), (136, 341914767255, 14065280125408198)]

/-- `vsop87d_dict.py` 3149-3248. -/
def mercuryB0_3 : List (ℕ × ℕ × ℕ) := [
  (115, 625299482333, 3974376363275060), (113, 79353194356, 799452844202420),
  (126, 12477487369, 5281570356946240), (121, 68099507149, 5048364061364600),
  (118, 87294905519, 13721022630911658), (112, 241390426449, 9758090196505119),
  (130, 122267912068, 20981260368468695), (110, 315687226733, 2523470675982219),
  (109, 285465805569, 2439573747207180), (108, 573587160710, 85319638175200),
  (141, 476875897743, 2842109953444620), (143, 57659923971, 17004917029103659),
  (127, 539590556187, 11063468841628819), (110, 79294568581, 10456491166173479),
  (103, 577115680934, 18208563102592478), (108, 78147749534, 4215396900304900),
  (101, 624176236571, 169216566950240), (125, 172822604057, 10434449901929598),
  (112, 153691309669, 1809337469954999), (100, 603656277681, 14742351185532758),
  (102, 216777222106, 3276912799497380), (127, 569552946334, 4418127784112419),
  (96, 281662615895, 10420204936916218), (94, 616378269144, 10329934418310839),
  (95, 308582674985, 7026918098269838), (96, 326682732105, 10328511708910679),
  (101, 149832461293, 4056525432477420), (99, 11817727117, 16785008294774959),
  (99, 380154992347, 21436455718174578), (93, 327120904242, 9069575207512038),
  (104, 535405285854, 12699694076290558), (105, 73008875321, 10477821075717278),
  (89, 282753100547, 5057961984086379), (98, 55393078868, 3396799229491319),
  (87, 147928882834, 9767038771289718), (117, 17401840597, 6127971327726600),
  (89, 41552735762, 2616416921284980), (91, 228447351962, 15705710981453978),
  (103, 267784306575, 17240203644480839), (84, 431852113132, 6005589543648739),
  (85, 450666554965, 10435872611329758), (98, 74967522191, 10594068546158058),
  (82, 280078395016, 5210102468458109), (86, 38069361609, 7492309699802278),
  (77, 491602955543, 2449171669928959), (104, 608692240129, 1002183728009940),
  (94, 221754829180, 2597346385288896), (79, 463574888508, 233319639287200),
  (76, 6676607630, 15758680077963437), (76, 409119863738, 159618644228460),
  (89, 51926466594, 5059384693486539), (78, 585412082904, 1820781398823521),
  (83, 148347794862, 5429457014352679), (102, 111648927836, 15024434299945379),
  (81, 43168464249, 15557181910783658), (71, 277560894834, 7782999768684579),
  (98, 304617186486, 1606606586147480), (89, 391487126164, 6824187214462319),
  (76, 332839538947, 12979961842155698), (91, 499146967087, 10213285546210999),
  (88, 454401955709, 5154302254383520), (92, 488825714860, 2620234243025941),
  (66, 197272013972, 63278373931320), (66, 134921841483, 5280859002246159),
  (71, 121551241620, 10779418751126219), (88, 390671333341, 7478159856730),
  (76, 111684262920, 7873167441507700), (60, 494665488683, 7825708086582259),
  (67, 424719146625, 1447735118320000), (69, 546721744006, 7784422478084739),
  (59, 280000354604, 2586355834587229), (60, 423924716288, 5222580290505260),
  (59, 590340687048, 10309277421860), (59, 381127888964, 7657154375522019),
  (60, 562072757879, 7779574443436819), (69, 436673018646, 20759384658050018),
  (66, 49890308433, 5195146148744649), (58, 163810168022, 5101333157874059),
  (58, 428286858594, 7741051304297059), (66, 61313044187, 5163900177105299),
  (57, 315657420172, 10427534649502118), (58, 441262101447, 2672068688088739),
  (75, 13973480485, 158195934828300), (57, 41985749035, 2343944831610119),
  (69, 604001555481, 2942851556827400), (55, 87548003173, 16107937234650398),
  (54, 210504641371, 264845482547300), (70, 190064683191, 20415127163553478),
  (54, 373359360369, 2492542843716640), (55, 474493087072, 4952735145767539),
  (71, 267007207774, 2450594379329119), (57, 110422154948, 13045918546877075),
  (68, 529164108644, 2601312154300690), (54, 6047544079, 5207271350892979),
  (53, 6419360550, 53680451209540), (53, 500852687358, 2597769682035479),
  (52, 417403886040, 2513161398560359), (52, 331036935415, 788008915333899),
  (70, 610702300469, 5227889905736699), (59, 197971323674, 5121951712717779)]

/-- `vsop87d_dict.py` 3249-3348. -/
def mercuryB0_4 : List (ℕ × ℕ × ℕ) := [
  (52, 17883872581, 22434479570190), (57, 264616122722, 5212580966124419),
  (51, 251127480556, 18357092173262799), (50, 467814206741, 13022621661243298),
  (50, 477326024770, 2578034552060460), (53, 281579181250, 5551641870984820),
  (57, 213355985608, 12832075184749259), (49, 232162107938, 2639546076254379),
  (49, 496049794937, 95628915597060), (47, 420636709156, 5225058788171570),
  (58, 223088591593, 5206559996192899), (48, 531209962934, 116247470440780),
  (62, 611793881000, 2274729071487440), (51, 516823572193, 13041984594697120),
  (58, 150494628165, 5450900267602040), (60, 43836944868, 11678365521669458),
  (59, 150474668065, 2650738778544939), (47, 328426374672, 2556532572348040),
  (56, 245288584577, 18102624909573558), (51, 346813929041, 5324230176033840),
  (45, 64303440167, 5269838370124219), (49, 43622928396, 2799910262479140),
  (46, 93537805397, 2616268474014150), (43, 595311422864, 7666752298243798),
  (60, 179764830651, 7827033798362259), (56, 227809233545, 18218872380014337),
  (43, 395909386803, 2652161487945100), (43, 206740816154, 5185941441349179),
  (51, 531772214752, 6665315746634839), (44, 168470111077, 2388881579828719),
  (54, 394217571152, 5232536948028299), (43, 513864955940, 1161055195837420),
  (42, 461363107691, 5249219815280499), (46, 339633739377, 10450539137678158),
  (46, 483387098498, 11020632121940), (45, 354092987543, 5080003248330259),
  (41, 569167231584, 2471212934172840), (40, 5181171325, 12320084011627098),
  (53, 61042891791, 5322807466633679), (39, 311194295827, 2598481036735560),
  (46, 253528410360, 5069693970908399), (38, 444293961717, 2941603879785439),
  (41, 266264705448, 23373174634397858), (37, 337388547918, 137577379984580),
  (38, 561891042604, 14300566740785378), (37, 542828179354, 2828699048486120),
  (49, 533653478407, 9902413645791399), (40, 563484527365, 52257741809380),
  (39, 340419666656, 2555109862947879), (36, 594925007197, 14520475475114079),
  (38, 207740095188, 15308484390447979), (39, 320021878147, 16376609444104518),
  (37, 522659089943, 5259529092702359), (42, 490625897857, 2577151127191760),
  (41, 299128318097, 2619099591579279), (44, 111685231827, 2640429501123080),
  (45, 461987657347, 13265827281205778), (37, 21788276252, 16674070439565618),
  (34, 194222980062, 20304189308344138), (45, 316157322891, 10419783375581198),
  (46, 446372826281, 31639186965660), (39, 202681719442, 13672259155786238),
  (34, 134191646454, 46796499035440), (43, 334582658464, 7890360671103658),
  (39, 365232351757, 19613707343261078), (37, 37289111380, 39131854712361297),
  (37, 288378512797, 3610974042167360), (37, 166197775716, 5229024557183361),
  (36, 391856090884, 5408700576636560), (34, 7777074766, 2629408869001139),
  (33, 257658065167, 2694109952332620), (34, 166706631543, 4984260989027639),
  (42, 365143192554, 7668175007643958), (32, 402685079656, 2435678078864160),
  (41, 348117117726, 2661048055966799), (40, 130798263894, 7763092568540938),
  (33, 331591322468, 6583166677432480), (42, 468305225464, 2460903656750980),
  (34, 243308912753, 2642175908234360), (31, 55207634036, 1336244970679920),
  (31, 397168176907, 13043563437251298), (35, 590195011358, 7818892782615528),
  (32, 558275762493, 2588171759313700), (32, 303394602316, 2778006881107659),
  (38, 461602478200, 13043240216087017), (31, 537268049479, 7593051303185058),
  (34, 468006477569, 2575404720080480), (30, 276917399150, 17351141499690177),
  (37, 437537497770, 147886657406440), (30, 269970929614, 20817353416749898),
  (29, 228199342452, 13044339704322898), (39, 404390928499, 3428217847478280),
  (33, 147153495142, 5550394193942859), (29, 309374594552, 2781902549450680),
  (30, 230968283835, 2662470765366959), (35, 218534594257, 2275976748529401),
  (27, 63624513172, 24045246032331996), (35, 540588312340, 5885703113654799),
  (28, 546904052697, 12366880510662538), (28, 382629644574, 13086611389874699)]

/-- `vsop87d_dict.py` 3349-3448. -/
def mercuryB0_5 : List (ℕ × ℕ × ℕ) := [
  (27, 391273567728, 16329812945069079), (32, 355783772742, 5225207235442399),
  (36, 526852179816, 5206136699446317), (27, 81868301401, 2545511940226100),
  (30, 623608007707, 2417670365835700), (25, 148874402537, 6037008161635699),
  (27, 441957053501, 7889649316403578), (25, 333404428554, 20618554843720),
  (25, 222580879047, 1272545343477500), (25, 537774707105, 18314501295611398),
  (26, 383674753452, 13202858860315479), (25, 293605355840, 12938724732468258),
  (25, 586161454740, 13028995251073639), (24, 403572089813, 2608938761428249),
  (24, 309138745629, 2608641866886590), (24, 140452977850, 2544648957983520),
  (33, 335253473958, 19393798608932378), (24, 481342275570, 2731172098235281),
  (24, 236840229716, 2544089230825939), (24, 260590286552, 12511203959948818),
  (27, 264006708171, 4429571712980940), (29, 385906422319, 13065281480330898),
  (33, 426007262410, 23590050682626116), (26, 337356285012, 8736761641884019),
  (24, 383432680564, 5238199183158559), (27, 414811634858, 17633224614102798),
  (23, 19227535404, 64701083331480), (25, 3897225418, 12937302023068098),
  (23, 573072631591, 2672931670331319), (26, 278110886808, 6490125971792339),
  (28, 614191568069, 3881335657634920), (25, 564677901976, 19848993958638258),
  (22, 247489263310, 2486408530079559), (23, 426682241390, 2622201219115920),
  (24, 452962335246, 12375829085447139), (23, 288962909157, 2595379409198919),
  (28, 467408679361, 8038247328510099), (21, 219925857864, 2386604650697719),
  (25, 81737451667, 9432977528619739), (21, 556863005528, 5271261079524379),
  (21, 94657470314, 2768408958385880), (23, 124923754668, 13044662925487179),
  (22, 155521175306, 2499819435038059), (24, 325930776298, 2766986248985719),
  (21, 316657819785, 18367470392120858), (20, 145970914613, 7561525459924959),
  (28, 265124448902, 7836680219894118), (21, 285719729554, 7816061665050399),
  (22, 14164137879, 5152879544983359), (22, 154435105177, 15874617595363196),
  (19, 195606380894, 2534491308104160), (19, 362491058376, 7803936462902068),
  (19, 259809360557, 1789362780836560), (19, 586487152937, 10391790082841998),
  (19, 507516493363, 23023917477710896), (23, 173809221823, 12822075860368418),
  (18, 370453311537, 7772690491262719), (20, 558951443277, 2717761193276780),
  (19, 226298959398, 10393212792242158), (18, 526103373994, 2873635796704720),
  (18, 477075669731, 7710123472031478), (19, 418613339997, 10481957755665119),
  (19, 372825596269, 3141537924995700), (18, 511985094325, 7730742026875199),
  (19, 161447515906, 5165322886505459), (22, 345569006244, 10101100013959699),
  (17, 334823797519, 2391914265929160), (17, 84289136609, 8614379857806159),
  (18, 81997628030, 2607367604757259), (20, 96632907921, 5260951802102519),
  (16, 127839838984, 5186824866217880), (20, 7187923898, 15588752156313117),
  (18, 544524309894, 2550821555457540), (16, 62722455150, 10265944689679438),
  (16, 52102795891, 222185663459700), (17, 393009669878, 5185230086649099),
  (16, 574180318220, 9635708412427259), (19, 509029341511, 11882896374949679),
  (17, 259947793429, 2444883362438620), (16, 552244950928, 219908734328700),
  (15, 336667960581, 191119948321720), (21, 353223071778, 18165972224941078),
  (19, 129524947399, 23368174972207438), (16, 111236515889, 10349841618454478),
  (20, 319274792861, 5196962073471119), (17, 327645001526, 2631224793727610),
  (16, 554159968247, 20711415223730978), (15, 275565944373, 2670964694241340),
  (15, 172732606714, 10434498400739678), (16, 531828785394, 7815350310350319),
  (16, 113565154505, 74299006053260), (15, 619247438386, 13036324963659538),
  (15, 116646378812, 9274106060792258), (15, 439941321864, 2546615934073500),
  (14, 103341872997, 7831370604662679), (16, 177081422797, 2704419229754480),
  (16, 177854347809, 2666759072857300), (14, 239782698608, 10388364757594238),
  (19, 627226219255, 2576439772491679), (14, 189621592736, 3769845509994840)]

/-- `vsop87d_dict.py` 3449-3548. -/
def mercuryB0_6 : List (ℕ × ℕ × ℕ) := [
  (14, 586393829627, 8160432185142238), (15, 241952075336, 2725037784598199),
  (17, 562378615870, 5143281622261579), (14, 57479381854, 819427533320860),
  (14, 201915873640, 15650774908854539), (14, 400033644851, 18716727548807819),
  (16, 305516572588, 2262565843570900), (14, 41333257896, 7688793562487679),
  (14, 381333935444, 2825666362385679), (16, 563829774136, 20965882487420218),
  (17, 279674558169, 32350541665740), (15, 452292533775, 2772697265876220),
  (17, 161686538851, 2619810946279360), (17, 428628662370, 13388209065283638),
  (13, 102936352404, 2586749049913539), (14, 557651447296, 200855753915900),
  (14, 155161726953, 15631411975400719), (17, 607989986315, 4995394964855139),
  (15, 487081069542, 10435824112519680), (13, 377228393975, 1966976089979),
  (15, 541429733370, 20827662694171758), (13, 115273910706, 94917560896980),
  (17, 464614224273, 11223170171963578), (15, 532485053265, 15440865498906678),
  (13, 402426203972, 41740645026518717), (13, 283441937048, 2516997285559240),
  (16, 355004561005, 8645798475793119), (14, 336717179008, 1254648193908300),
  (13, 99900287294, 7833849102328988), (12, 372935261349, 7878628684281638),
  (13, 455769261775, 8059690581759460), (13, 368794178346, 7931597780791098),
  (14, 416918945992, 15654708861034496), (12, 312295185577, 14928874325784518),
  (12, 269822851627, 15377881048480), (12, 438117483432, 2700583342755599),
  (12, 19322533903, 2746367694142000), (14, 415127082280, 2955014784743939),
  (12, 280411772823, 10275542612401219), (11, 582734448081, 25981964948555276),
  (11, 240607503106, 16909357054942798), (12, 49737747696, 10276965321801379),
  (14, 569923121834, 7678484285065818), (12, 556466695759, 2640208932144380),
  (12, 148301102812, 7858010129437919), (11, 515388067065, 7794731755506598),
  (11, 164586759073, 2577371696170459), (11, 245779334771, 3408243158359840),
  (14, 200354520885, 84608283475120), (13, 71980668578, 7841327262185719),
  (11, 517906120193, 16281049469943657), (11, 273596940194, 17129265789271498),
  (11, 559141622457, 2420300197815680), (11, 45608202666, 211165031337760),
  (10, 329404880642, 19282860753723037), (10, 45857052500, 22222497657418498),
  (13, 570684493376, 7821371280281838), (11, 437474459591, 10371882882698359),
  (11, 63918585951, 2611823000257860), (13, 583092856998, 2641140855823160),
  (10, 545367935399, 5248336390411799), (10, 470344741563, 212587740737920),
  (11, 28816338163, 2605757628056979), (10, 557764903480, 15119994274106238),
  (11, 3362968403, 10499150985261079), (10, 371565881071, 14853289040742096),
  (13, 25119201649, 7933020490191258), (10, 623763004539, 12810631931499895),
  (11, 623138757669, 13028573689738619), (13, 360703035316, 3962932434406539),
  (11, 208623018213, 7868319406859778), (11, 289478268807, 12244498726584678),
  (11, 147224457688, 15652030530244438), (12, 18308102701, 13059329451835579),
  (9, 524611723729, 13831960486120995), (9, 564920582852, 126556747862640),
  (9, 625551575071, 5390692863608099), (11, 336985744471, 14287155835826878),
  (9, 547085206361, 15653130018480319), (9, 479150958411, 10170315774082378),
  (9, 273233240797, 3813303563780), (9, 591954900221, 6219764356324779),
  (9, 473154570336, 7837814871340781), (11, 80389582741, 332813565628019),
  (9, 625489842872, 9191956991589899), (9, 587197255624, 19959931813847595),
  (9, 76033087382, 15652353751408719), (8, 63159267832, 8017490890793978),
  (9, 502352759781, 22912979622501558), (8, 263272452796, 2513872753260440),
  (8, 59154768044, 15695401704032118), (8, 395681232703, 12041767842777158),
  (8, 346882638388, 7761669859140778), (8, 20349823136, 11345551956041438),
  (8, 21724719953, 1354142120249119), (8, 177719128692, 2607685744131030),
  (9, 621878690440, 18985399758261938), (7, 588768146200, 5122663067417859),
  (7, 61161547244, 15811649174472898), (8, 205860519043, 7814927013603736)]

/-- `vsop87d_dict.py` 3549-3648. -/
def mercuryB0_7 : List (ℕ × ℕ × ℕ) := [
  (7, 9500184933, 9098916285949759), (7, 56541937862, 2598594062330859),
  (7, 73212945216, 7846989497315978), (7, 44088896603, 10412726777059489),
  (8, 586653927002, 10445470534051539), (7, 70585294359, 5217729075585669),
  (9, 196929942879, 127268102562720), (10, 272173324175, 10427683096772949),
  (7, 516315798030, 2618986565983980), (7, 517079740730, 17917274704605396),
  (8, 526981396126, 4884767062686820), (8, 19880797043, 148447270830),
  (7, 626371276121, 5217432181044009), (8, 98956493578, 1670306213349900),
  (7, 8448723866, 2609894884183810), (8, 567030179581, 5302900266490040),
  (7, 115333561308, 26198840996783535), (7, 70724943755, 6571722748563958),
  (7, 52800551865, 10381480805420138), (8, 225202792521, 14975670824819959),
  (7, 145586274187, 5184195034237900), (7, 228027029168, 5437489362643540),
  (7, 196795602434, 10339532341032618), (7, 91100826202, 2797280430499159),
  (7, 604142381509, 15547515046625677), (8, 66187102958, 15674071794488319),
  (7, 94700216301, 20242014928260217), (8, 34397341638, 7833997549599818),
  (8, 199164711035, 8494493427812219), (6, 316647388859, 7604185279012559),
  (7, 118920934641, 10498439630560997), (7, 612812258419, 5386797195265079),
  (7, 268832841048, 15637785565231058), (7, 482261895829, 5228601260436779),
  (6, 212110075547, 14807872442630), (6, 305937939252, 15104766984290),
  (7, 9315209734, 22002588923089796), (8, 556250511075, 5250966222391780),
  (6, 257622376266, 22457784272795678), (7, 265171386195, 22041264243880),
  (6, 200091220299, 10201841617342478), (7, 86158158633, 5044468393021580),
  (7, 161990482140, 10318913786188899), (6, 268512587119, 7752071936418998),
  (6, 482671721903, 15430866174525839), (6, 240727316051, 7880051393681798),
  (6, 566286619587, 23426143730907318), (7, 138238075345, 10647037642667518),
  (7, 462193558950, 8159184508100279), (7, 26927581545, 12709890328117118),
  (6, 92172283144, 5750328239153120), (6, 539808870469, 13002003106399579),
  (6, 252761413373, 5281721984488739), (6, 6817978613, 5375776563143139),
  (7, 313547312140, 15546092337225519), (5, 217501494391, 20923291609768818),
  (5, 216759656006, 10424140624507738), (6, 268409858369, 13000580396999417),
  (5, 158914721681, 5016724874398939), (5, 101687539089, 5563805098901359),
  (7, 131888655444, 14984619399604558), (5, 248117306579, 938484100807520),
  (5, 370948655428, 26654036346489414), (7, 571513815276, 7038362027138360),
  (6, 455015130253, 5195539364070959), (5, 351602263966, 10297583876645098),
  (5, 369945557546, 3945035284837340), (5, 398232048303, 5377199272543299),
  (6, 101394190869, 7794020400806518), (5, 250588363651, 10287274599223239),
  (7, 301244944080, 5026460679993120), (6, 45316437598, 5006415596977079),
  (7, 603933985106, 148598012106520), (5, 135734487293, 5381487580033639),
  (5, 443939776623, 5153439272140940), (5, 229075654159, 6156064729122359),
  (5, 7896316759, 7805752387628538), (5, 95484155225, 13090748069822539),
  (5, 156485117164, 5339962412392700), (5, 455586232099, 5213767324751059),
  (6, 434778590755, 15653453239644598), (5, 372691818970, 12874735003836859),
  (4, 56386565513, 18938603259226495), (4, 267910077904, 10769222499299659),
  (6, 610947724529, 10424851979207818), (4, 399859010561, 10440160918820098),
  (4, 51280078907, 5434456676543099), (5, 419917665740, 12958631932611899),
  (4, 591763059229, 5204169723356339), (5, 318633834950, 18197542470470538),
  (5, 99354989216, 179525844372100), (4, 620030341798, 20976260706278277),
  (4, 457601261459, 18483407909520617), (6, 481632935419, 7774113200662879),
  (4, 232553366031, 5326551507434200), (4, 483867556795, 5275549387014719),
  (4, 47379105299, 10540388094948517), (4, 262000942355, 5004992887576919),
  (5, 101847704961, 5230991533273340), (4, 512416312887, 5202772755872209)]

/-- `vsop87d_dict.py` 3649-3666. -/
def mercuryB0_8 : List (ℕ × ℕ × ℕ) := [
  (4, 26524339921, 5000704580086580), (5, 30725353996, 20774762539098498),
  (4, 493794243881, 6378635824152260), (4, 451168915835, 7795615180375299),
  (5, 116733741695, 2756676971563859), (4, 377703754152, 10450117576343138),
  (4, 544859511930, 12997155071751658), (5, 522593130125, 5132972344839720),
  (4, 164237114391, 13044614426677099), (4, 128513103275, 11254588789950538),
  (4, 350115780256, 7615205911134499), (4, 479032272131, 13043288714897096),
  (4, 562786746084, 4398153094993980), (4, 412687975050, 5202475861330549),
  (4, 513202982684, 73587651353180), (4, 464327471216, 7625515188556358),
  (4, 134781477964, 10668480895916879), (4, 234997151211, 17728784588263658)]

/-- `vsop87d_dict.py` 2848-3667. -/
def mercuryB0 : List (ℕ × ℕ × ℕ) := List.flatten [
  mercuryB0_0, mercuryB0_1, mercuryB0_2, mercuryB0_3, mercuryB0_4, mercuryB0_5, mercuryB0_6, mercuryB0_7, mercuryB0_8]

/-- `vsop87d_dict.py` 3669-3768. -/
def mercuryB1_0 : List (ℕ × ℕ × ℕ) := [
  (429151362, 350169780393, 2608790314157420), (146233668, 314159265359, 0),
  (22675295, 1515366880, 5217580628314840), (10894981, 48540174006, 7826370942472259),
  (6353462, 342943919982, 10435161256629678), (2495743, 16051210665, 13043951570787099),
  (859585, 318452433647, 15652741884944518), (277503, 621020774184, 18261532199101939),
  (86233, 295244391822, 20870322513259358), (26133, 597708962692, 23479112827416777),
  (27696, 29068938889, 2719728169366760), (12831, 337744320558, 5328518483524180),
  (12720, 53792661684, 2497852458948080), (7781, 271768609268, 26087903141574195),
  (7527, 358305121268, 5106642773105500), (6183, 292383205004, 3174923519072640),
  (5453, 197318763801, 5111642435295920), (3394, 34761695275, 7715433087262919),
  (3481, 10739761667, 7937308797681599), (2932, 595430013169, 5783713833230060),
  (2742, 98758439378, 2502852121138500), (2126, 416352818018, 4762385278608960),
  (2286, 574036496396, 28696693455731616), (2380, 400213666550, 2153594964451540),
  (1651, 443606584681, 2704350288318280), (1523, 197926797181, 566133204915220),
  (1518, 501636479848, 7720432749453338), (1398, 66375029294, 2042657109242200),
  (1345, 339193943388, 10324223401420339), (1297, 534251327744, 3741056723987860),
  (1076, 95624460335, 5058673338786459), (1050, 300944151152, 2610757290247399),
  (918, 189988871166, 105938193018920), (1063, 128486292967, 5313140602475700),
  (905, 334776562702, 2555821217647960), (929, 481159652409, 5164611531805379),
  (782, 608817839271, 52969096509460), (783, 150962699410, 4196252073693740),
  (794, 216868396183, 6349847038145279), (731, 92148918837, 7371175592766379),
  (755, 410910637390, 2606823338067440), (703, 222466530621, 1021328554621100),
  (922, 230268247092, 110937855209340), (739, 305842748947, 10546099111839019),
  (681, 140695567526, 5174920809227239), (841, 593206787810, 2608402180621620),
  (616, 595368982430, 3960965458316560), (610, 296796433797, 2513230339996560),
  (721, 116472614778, 4651447423399620), (638, 116941585214, 2609178447693220),
  (633, 307427024064, 3063985663863300), (665, 247994200156, 31305483769889036),
  (669, 410310179631, 7260237737557039), (495, 14776350456, 12933013715577759),
  (474, 261466823958, 3285861374281979), (470, 504436148211, 1352175144159140),
  (494, 7430556450, 2830666024576099), (459, 581611579004, 5122020654153979),
  (467, 556622114735, 455195349705880), (433, 210197184422, 2449883024629040),
  (430, 391046377635, 7667463652943878), (436, 146213785727, 4307189928903080),
  (383, 605537830853, 5219547604404819), (335, 55996605330, 2386914603738740),
  (369, 443217995206, 2264532819660879), (329, 259508442112, 6569755772473979),
  (346, 203170085305, 2714728507176339), (424, 29775934661, 158907289528380),
  (378, 509810178577, 5323518821333759), (308, 330225015955, 5439456338733519),
  (314, 240932519602, 8392504147387479), (364, 587784809361, 5894651688439399),
  (352, 87939481900, 5215613652224860), (352, 592675293084, 2566130495069820),
  (310, 269873876637, 5217192494779040), (345, 84406679212, 9869028051714458),
  (358, 614890038263, 5672775978020720), (248, 234396840060, 5153590899683439),
  (286, 239648280163, 1980482729158280), (338, 155189200325, 5270549724824299),
  (239, 335169081927, 5216869273614759), (234, 251108507067, 7730810968311399),
  (229, 516737598091, 3630118868778519), (245, 426996032400, 1931719254032860),
  (210, 316281965425, 2953047808653960), (212, 533861521612, 1587461759536320),
  (291, 422929240183, 5217968761850640), (263, 464138649646, 6915980243060499),
  (235, 508060846802, 5941448187474840), (251, 190047504790, 1476523904326980),
  (253, 421581970504, 7921930916633119), (194, 505904557922, 5110931080595839),
  (188, 390664116889, 4873323133818299), (207, 289949362192, 711354700080),
  (179, 443018837604, 7783711123384659), (223, 296569885227, 11001294461544899),
  (176, 515204624857, 8958637352302698), (215, 450903357312, 7879340038981718),
  (173, 318496771460, 15541804029735178), (205, 189888752382, 7932309135491178)]

/-- `vsop87d_dict.py` 3769-3868. -/
def mercuryB1_1 : List (ℕ × ℕ × ℕ) := [
  (175, 291183047213, 8281566292178139), (165, 49123694380, 2503563475838580),
  (183, 142148796836, 7773401845962799), (158, 363030783882, 4995704917896160),
  (201, 478711687782, 4085314218484400), (157, 302451795123, 5218291983014920),
  (192, 550218209050, 33914274084046457), (145, 339803928124, 4589273043315699),
  (140, 264826898848, 1698399614745660), (190, 305043439775, 2767697603685800),
  (169, 340273824751, 2587460404613620), (148, 387588943419, 12477818365871879),
  (134, 94930028730, 2502140766438420), (174, 588326736492, 13610084775702319),
  (138, 234393108627, 105226838318840), (163, 605484015332, 2608078959457339),
  (142, 307209103150, 344257494496540), (137, 210984857727, 42659819087600),
  (126, 189432609260, 106649547719000), (122, 104298624291, 4540509568190280),
  (135, 466414339767, 2544800585526019), (115, 281365851520, 7828337918562238),
  (114, 447315411813, 6805042387851159), (134, 535393682799, 21329909543800),
  (125, 161827845372, 12938013377768178), (158, 553788931475, 910390699411760),
  (116, 50075235780, 10276253967101299), (136, 24559658100, 5005704242277000),
  (124, 220590858584, 3332657873317420), (106, 615493608726, 1132266409830440),
  (123, 443265735200, 63989728631400), (137, 393191153638, 7824403966382280),
  (138, 446503235172, 5112353789995999), (119, 364440622006, 2661759410666880),
  (99, 618313188027, 5561838122811380), (101, 552733987069, 10339601282468818),
  (107, 479994153405, 677071060124560), (96, 1853371395, 8048246652890938),
  (115, 157423656512, 6694104532641819), (111, 100588061631, 7826759076008058),
  (121, 590839328752, 2609501668857500), (95, 574549458142, 7825982808936459),
  (100, 190676485528, 10329223063610759), (107, 573194510449, 13154889425996438),
  (98, 549064814924, 7762381213840858), (112, 87682090108, 7482113447975718),
  (90, 582373560803, 95559974160860), (93, 15279056716, 7825659587772179),
  (100, 121759895953, 10488130353139139), (87, 420722631983, 1256615169998280),
  (88, 500176994115, 3851994579197200), (86, 123375034376, 2630120223701220),
  (85, 188852891739, 7719721394753258), (82, 375652571856, 9979965906923798),
  (89, 495684147986, 10541099449648599), (96, 510490831351, 5238910537858640),
  (75, 250722139185, 221875710418680), (93, 600229475799, 5376487917843220),
  (73, 611603054445, 7827082297172339), (91, 467762120545, 15546803691925599),
  (80, 198564256640, 723867559160000), (89, 162820970873, 628307584999140),
  (73, 593728826025, 10890356606335558), (87, 261787684648, 16218875089859738),
  (92, 255298032665, 8503442002596818), (76, 444230028342, 3865405484155699),
  (70, 207147354168, 2593412433108940), (78, 179664677749, 2396913928119580),
  (68, 215267768357, 6460784893354619), (69, 137976390686, 7721144104153418),
  (80, 75440631101, 211876386037840), (60, 595179539253, 1884922754997420),
  (58, 98126270514, 5196250718771040), (57, 63495768344, 15086608680029298),
  (63, 40577774917, 7604495232053580), (61, 320728040856, 7614494556434419),
  (53, 134424134476, 5174209454527159), (52, 411944860444, 7149299882347698),
  (54, 223964604878, 4493713069154840), (64, 119785741966, 6474195798313119),
  (58, 622316473811, 18150594343892598), (60, 212727479557, 8847699497093359),
  (49, 176854754615, 1365586049117640), (49, 127506119902, 2672780042788820),
  (48, 204581990152, 7847700852016058), (50, 462948267835, 9302894846799239),
  (55, 547526225139, 6238909182935939), (47, 499113735496, 2715439861876420),
  (55, 479762177368, 9413832702008578), (51, 556459812422, 5260240447402440),
  (55, 120462687751, 9524770557217918), (50, 221530140501, 36523064398203876),
  (49, 68636780387, 10433194280539699), (47, 430403626352, 2375470674870219),
  (42, 332657201754, 2565419140369739), (51, 108082309375, 2561993815121980),
  (47, 279966035046, 2651450133245020), (40, 291932668980, 8170628436968799),
  (40, 465660434525, 12990982474277639), (41, 421875403274, 13096920667296558)]

/-- `vsop87d_dict.py` 3869-3968. -/
def mercuryB1_2 : List (ℕ × ℕ × ℕ) := [
  (50, 146644208786, 12022623016165999), (47, 377053215629, 2597346385288896),
  (47, 282867670887, 2566841849769900), (46, 414427477722, 12588756221081219),
  (39, 406156914485, 10435549390165479), (37, 322245380356, 5132260990139639),
  (39, 226439106521, 12948391596626239), (40, 54598734169, 10530721230790539),
  (35, 553895897820, 43371173787680), (38, 605329467990, 41948464387520),
  (39, 272082598885, 7985278232000639), (35, 172937228501, 13149889763806018),
  (34, 83611265968, 1243204265039780), (32, 445254278754, 5057961984086379),
  (42, 141457022130, 18155594006083018), (32, 473349986920, 5202624308601380),
  (36, 560766535694, 18827665404017158), (33, 398525990131, 7805041032928458),
  (32, 586059322955, 10437128232719658), (40, 545287901295, 2714017152476259),
  (31, 517982917253, 7102503383312259), (39, 334206786809, 2620234243025941),
  (29, 194010215318, 10382192160120218), (36, 65969730203, 5175632163927320),
  (30, 82864967511, 4684833017476560), (38, 80809536333, 15197546535238638),
  (29, 289227792530, 10435872611329758), (29, 449728060011, 10329934418310839),
  (35, 148121158024, 8550238501632259), (28, 548224379273, 9178546086631398),
  (30, 311318420566, 10657036967048359), (34, 426548581082, 9082986112470538),
  (31, 567743476614, 11787336400788819), (28, 497598935775, 10328511708910679),
  (33, 518111128318, 11456489811250778), (27, 88054842818, 15763679740153858),
  (26, 257652351573, 13499146920492979), (29, 264144900778, 2613789976347840),
  (28, 323650761988, 12885044281258718), (30, 603255187776, 3237097899156560),
  (29, 323415692694, 10434449901929598), (32, 321019810469, 2842109953444620),
  (24, 252484264487, 159618644228460), (24, 27171495756, 2449171669928959),
  (26, 120902208843, 4418127784112419), (27, 571639245109, 11112232316754239),
  (31, 368314656803, 2820666700195260), (30, 236500429653, 10371171527998279),
  (22, 447547965260, 7782999768684579), (22, 593080138405, 9806853671630539),
  (21, 445887879737, 5281570356946240), (22, 151276188597, 3519181013569180),
  (25, 367349275753, 85319638175200), (21, 521045664362, 10456491166173479),
  (23, 352400873624, 10090903762133139), (21, 91705070968, 9758090196505119),
  (21, 393681460045, 2545511940226100), (20, 251210823023, 10434773123093879),
  (27, 235592427305, 7869030761559859), (20, 509828683951, 5209954021187280),
  (19, 337799607043, 4549458142974879), (21, 147540794459, 11567427666460119),
  (20, 117802900406, 15599772788435058), (25, 446628547605, 14631413330323418),
  (23, 229934592297, 3396799229491319), (20, 67974525638, 2450594379329119),
  (20, 532443861216, 2523470675982219), (18, 483011056299, 5059384693486539),
  (20, 219515561332, 5163900177105299), (20, 454362105039, 2603790651966999),
  (18, 366945372389, 17695398994186718), (22, 236457126914, 14396126714946238),
  (20, 191605933726, 5324230176033840), (17, 365797302958, 2593833994443960),
  (17, 472356636284, 3974376363275060), (17, 463385029370, 7026918098269838),
  (23, 347296935942, 10213285546210999), (18, 389075237232, 7784422478084739),
  (16, 139550514982, 11911685160956658), (17, 319413997784, 233319639287200),
  (18, 10505670252, 5229024557183361), (15, 566501892458, 799452844202420),
  (17, 559546671313, 6005589543648739), (15, 335297565546, 5845888213313979),
  (19, 188696722328, 158195934828300), (16, 351339563149, 2609453170047421),
  (15, 587796844640, 10594068546158058), (14, 490677373859, 63278373931320),
  (17, 294915136654, 1809337469954999), (16, 330923893089, 2650738778544939),
  (17, 279032831551, 12415643985787958), (17, 232026007183, 5322807466633679),
  (15, 127735280723, 10392501437542078), (14, 47578456087, 10413831347085879),
  (14, 433486658309, 1820781398823521), (14, 625912081869, 10223284870591838),
  (16, 519489448771, 5202202747266360), (15, 336079341013, 2624168195205900),
  (16, 62153007569, 7198063357473118), (16, 34240403974, 2608127458267419)]

/-- `vsop87d_dict.py` 3969-4068. -/
def mercuryB1_3 : List (ℕ × ℕ × ℕ) := [
  (15, 443868814661, 20764384320240439), (17, 344704905407, 18372470054311278),
  (16, 8608453345, 7741051304297059), (13, 445469253351, 9069575207512038),
  (14, 526281612633, 39131854712361297), (13, 228140033187, 2652161487945100),
  (13, 475564434373, 53680451209540), (13, 372895039092, 13041984594697120),
  (15, 626388997196, 5450900267602040), (14, 132802909705, 2076042703319140),
  (12, 96182853080, 15705710981453978), (17, 300168933222, 20759384658050018),
  (16, 54167157981, 5206136699446317), (16, 376004077423, 17806336849396059),
  (12, 50356687265, 532747610838280), (14, 65739903621, 8454678527471398),
  (14, 264166191335, 4215396900304900), (11, 187375624710, 9711293697469679),
  (12, 528144640817, 2661048055966799), (12, 102715379165, 13001291751699499),
  (11, 476973198116, 15758680077963437), (11, 403645617358, 2601163707029860),
  (12, 103774094920, 11691776426627958), (11, 234762914711, 21436455718174578),
  (13, 596105286469, 4952735145767539), (13, 38784055589, 5429457014352679),
  (11, 80279403389, 13044339704322898), (12, 191910219792, 14065280125408198),
  (11, 482050468552, 64701083331480), (12, 395784286024, 7293623331633979),
  (10, 238363926963, 5269838370124219), (12, 521962000846, 2555109862947879),
  (11, 124041943634, 5154302254383520), (10, 123610986711, 7666752298243798),
  (11, 527116774881, 15557181910783658), (11, 598419309923, 10779418751126219),
  (10, 55390559777, 2694109952332620), (10, 149161844344, 5232958509363319),
  (11, 468946178137, 2619099591579279), (9, 563092803389, 2768408958385880),
  (11, 609445403088, 2655586813192860), (10, 9698975387, 2941603879785439),
  (10, 72339727974, 2275976748529401), (9, 196066446481, 5152879544983359),
  (9, 428124553384, 12133560871375339), (8, 426127907796, 18208563102592478),
  (9, 334775259107, 2274729071487440), (8, 125238578145, 12938724732468258),
  (8, 386388656969, 2486408530079559), (10, 134737181255, 264845482547300),
  (8, 572234642822, 16107937234650398), (9, 545351693096, 10477821075717278),
  (11, 285637796333, 5264377127350280), (8, 327339488052, 2731172098235281),
  (10, 131510855953, 5212580966124419), (9, 117621493154, 17240203644480839),
  (8, 243297081646, 13139511544947959), (9, 46231104626, 2662470765366959),
  (7, 493485551094, 4883519385644859), (7, 592438953036, 13044662925487179),
  (7, 515107638670, 14956319713460), (8, 476652316, 20981260368468695),
  (8, 506558822410, 6127971327726600), (9, 56618846666, 52257741809380),
  (7, 263009300708, 13045918546877075), (8, 208959717350, 2556532572348040),
  (9, 537562306264, 17004917029103659), (8, 405554156200, 15610082065856918),
  (7, 558541192959, 12979961842155698), (7, 176385898252, 12937302023068098),
  (6, 486066957244, 788008915333899), (8, 447849277972, 1002183728009940),
  (6, 530561035943, 7772690491262719), (6, 127631388714, 10391790082841998),
  (6, 461189217781, 15748301859105378), (6, 396170038596, 12366880510662538),
  (6, 133523648266, 7890360671103658), (6, 55702386570, 20415127163553478),
  (5, 155562437906, 2629408869001139), (6, 205839183005, 13065281480330898),
  (5, 558094407959, 13043563437251298), (5, 147580092631, 7811414622758799),
  (6, 410195998301, 5170784129279399), (5, 542356096080, 334061242669980),
  (5, 71252148739, 10393212792242158), (5, 331021043385, 11159028815789679),
  (5, 518242316734, 1336244970679920), (7, 2670007799, 13043240216087017),
  (6, 564961767520, 5222580290505260), (6, 24412111381, 12822075860368418),
  (5, 445623339313, 14520475475114079), (6, 559932602145, 15493834595416138),
  (5, 44843767302, 20304189308344138), (6, 61515143577, 12699694076290558),
  (6, 376267562514, 11063468841628819), (5, 387958020217, 2544089230825939),
  (6, 612898547290, 13265827281205778), (6, 178589858446, 7668175007643958),
  (6, 331942003464, 2588171759313700), (5, 483610476376, 7841748823520739)]

/-- `vsop87d_dict.py` 4069-4162. -/
def mercuryB1_4 : List (ℕ × ℕ × ℕ) := [
  (5, 162128192664, 6583166677432480), (6, 579832326006, 15024434299945379),
  (4, 490210493212, 12320084011627098), (4, 4822157393, 7158248457132299),
  (4, 125993980368, 23373174634397858), (4, 409490053686, 14300566740785378),
  (4, 60263195052, 668122485339960), (5, 353504145685, 13022621661243298),
  (4, 252659732174, 13202858860315479), (4, 509490146272, 7626607127560),
  (4, 141880070183, 3141537924995700), (5, 567226040777, 6824187214462319),
  (6, 607125845396, 147886657406440), (4, 290387262796, 12832075184749259),
  (4, 316756186361, 7837814871340781), (4, 32589274840, 5259529092702359),
  (5, 178096081490, 11678365521669458), (4, 499518857973, 16674070439565618),
  (5, 490494970331, 7933020490191258), (4, 523437839920, 20618554843720),
  (4, 264302747396, 7561525459924959), (4, 81407144130, 7593051303185058),
  (4, 53239895977, 15650774908854539), (4, 427504704332, 95628915597060),
  (4, 301307667234, 8059690581759460), (3, 415170143655, 2586749049913539),
  (3, 402158764895, 5271261079524379), (4, 597032773544, 7873167441507700),
  (4, 513753166239, 13767819129947099), (3, 538378225170, 7931597780791098),
  (3, 490402266218, 7763092568540938), (4, 335681065144, 8038247328510099),
  (4, 334724303278, 5550394193942859), (3, 439477038963, 10275542612401219),
  (4, 219880101386, 13721022630911658), (3, 192191274920, 8736761641884019),
  (4, 362687237484, 7814927013603736), (3, 534278285975, 7761669859140778),
  (3, 404927793779, 18314501295611398), (3, 233740424416, 8614379857806159),
  (3, 29051326311, 6665315746634839), (4, 319530187424, 10349841618454478),
  (3, 183670250940, 7818744335344699), (4, 608402133763, 23368174972207438),
  (3, 544799723236, 5260951802102519), (3, 388568044923, 15653130018480319),
  (3, 156467339056, 18367470392120858), (3, 237223694472, 1161055195837420),
  (4, 236349454401, 332813565628019), (3, 221015804942, 13086611389874699),
  (3, 100111385284, 1254648193908300), (3, 504736992413, 16785008294774959),
  (4, 274224804458, 13388209065283638), (3, 604124419781, 1606606586147480),
  (3, 200390511344, 2598481036735560), (3, 358451231520, 1940667828817460),
  (3, 558865591583, 5238199183158559), (3, 549839860031, 7878628684281638),
  (3, 235251877810, 5048364061364600), (3, 223638545873, 41740645026518717),
  (3, 89820153238, 18218872380014337), (3, 218659555288, 19613707343261078),
  (3, 123213629886, 18357092173262799), (3, 65362427623, 116247470440780),
  (3, 237265737062, 14176217980617538), (3, 237167138660, 10309277421860),
  (3, 343071585489, 5121951712717779), (2, 543620933898, 24045246032331996),
  (2, 479210725186, 6490125971792339), (3, 58543714627, 13672259155786238),
  (2, 365273296014, 5302900266490040), (3, 140305085463, 5227889905736699),
  (3, 291888451759, 23590050682626116), (2, 524862580724, 3276912799497380),
  (3, 92825301327, 2942851556827400), (2, 128026650043, 9635708412427259),
  (3, 347745075021, 4984260989027639), (3, 127522510736, 4429571712980940),
  (3, 206356044829, 18165972224941078), (2, 182577636633, 18102624909573558),
  (2, 373653346143, 4884767062686820), (2, 429258038531, 19848993958638258),
  (3, 130423082531, 2623746633870879), (2, 562405074860, 11223170171963578),
  (3, 434969907580, 7821371280281838), (2, 440950391344, 15547515046625677),
  (2, 510859116787, 2766986248985719), (2, 240342983563, 5377199272543299),
  (2, 176898437388, 10450539137678158), (2, 113321786137, 20817353416749898),
  (3, 495012664609, 10276965321801379), (2, 237593594042, 5195146148744649),
  (3, 65556179120, 169216566950240), (2, 165727778641, 16376609444104518)]

/-- `vsop87d_dict.py` 3668-4163. -/
def mercuryB1 : List (ℕ × ℕ × ℕ) := List.flatten [
  mercuryB1_0, mercuryB1_1, mercuryB1_2, mercuryB1_3, mercuryB1_4]

/-- `vsop87d_dict.py` 4165-4264. -/
def mercuryB2_0 : List (ℕ × ℕ × ℕ) := [
  (11830934, 479065585784, 2608790314157420), (1913516, 0, 0),
  (1044801, 121216540536, 5217580628314840), (266213, 443418336532, 7826370942472259),
  (170280, 162255638714, 10435161256629678), (96300, 480023692017, 13043951570787099),
  (44692, 160758267772, 15652741884944518), (18316, 466904655377, 18261532199101939),
  (6927, 143404888930, 20870322513259358), (2479, 447495202955, 23479112827416777),
  (1739, 183080039600, 2719728169366760), (852, 122749255198, 26087903141574195),
  (641, 487358642253, 5328518483524180), (301, 196098924430, 5106642773105500),
  (306, 503912693671, 2497852458948080), (284, 425874901943, 28696693455731616),
  (235, 314549432371, 5111642435295920), (232, 422847849119, 3174923519072640),
  (186, 505207772442, 7715433087262919), (143, 571074961492, 2153594964451540),
  (114, 562232460770, 2704350288318280), (123, 151066137419, 7937308797681599),
  (93, 183776226489, 10324223401420339), (81, 85802178989, 5783713833230060),
  (79, 550027152752, 4762385278608960), (93, 101040170383, 31305483769889036),
  (58, 235944147105, 5313140602475700), (74, 228645155343, 5058673338786459),
  (49, 178193753560, 2830666024576099), (58, 588387132512, 7720432749453338),
  (60, 54679388547, 3741056723987860), (46, 577182292982, 52969096509460),
  (52, 358488737294, 2555821217647960), (61, 164891174657, 2042657109242200),
  (43, 615538236294, 5164611531805379), (42, 489875940528, 12933013715577759),
  (36, 561094806248, 2264532819660879), (33, 434189175312, 3285861374281979),
  (37, 450512068847, 2610757290247399), (32, 199466664427, 2513230339996560),
  (30, 76607738630, 566133204915220), (27, 487180838160, 5439456338733519),
  (29, 566168505554, 2606823338067440), (25, 331115218239, 105938193018920),
  (29, 270280425915, 4196252073693740), (29, 356940606994, 6349847038145279),
  (29, 401947170286, 33914274084046457), (28, 80200569507, 3960965458316560),
  (23, 530820497885, 2386914603738740), (24, 486369445330, 4651447423399620),
  (27, 332081057071, 1021328554621100), (30, 115631768661, 2608402180621620),
  (24, 271284750937, 2609178447693220), (21, 585119251529, 2587460404613620),
  (26, 311971794265, 4307189928903080), (23, 114258266850, 5894651688439399),
  (21, 478965226125, 5122020654153979), (25, 517153436907, 7667463652943878),
  (20, 605659966832, 2502852121138500), (17, 406375348164, 5153590899683439),
  (19, 226589689692, 7260237737557039), (19, 202802084878, 7371175592766379),
  (20, 244092663198, 5174920809227239), (17, 167702029587, 15541804029735178),
  (18, 211191340126, 2661759410666880), (19, 32685450395, 455195349705880),
  (16, 402105643770, 10546099111839019), (14, 235860855509, 2608078959457339),
  (13, 328426450224, 2566130495069820), (16, 209223320909, 10329223063610759),
  (13, 208475100066, 4995704917896160), (14, 566400816218, 4873323133818299),
  (13, 165023710844, 2609501668857500), (15, 543792291298, 2597346385288896),
  (12, 515541566845, 7921930916633119), (12, 293766606728, 3332657873317420),
  (11, 516599347976, 1587461759536320), (15, 349521469034, 8392504147387479),
  (12, 133980027148, 7730810968311399), (12, 274476655782, 1931719254032860),
  (14, 548457159802, 9869028051714458), (12, 617629016531, 3630118868778519),
  (12, 516549673414, 158907289528380), (10, 319718718931, 2449883024629040),
  (10, 310957426655, 1698399614745660), (10, 267818215946, 7773401845962799),
  (12, 164438976704, 2620234243025941), (11, 612421691815, 5270549724824299),
  (10, 542117419251, 1476523904326980), (11, 159577581724, 5005704242277000),
  (12, 244342322463, 21329909543800), (11, 459333229552, 5672775978020720),
  (8, 222267415318, 628307584999140), (10, 363881306668, 6569755772473979),
  (8, 85708473896, 36523064398203876), (10, 356346926379, 5323518821333759),
  (9, 303935867498, 7879340038981718), (8, 205186284069, 3063985663863300),
  (8, 607959531374, 5941448187474840), (7, 148753095657, 2953047808653960)]

/-- `vsop87d_dict.py` 4265-4364. -/
def mercuryB2_1 : List (ℕ × ℕ × ℕ) := [
  (7, 54370332724, 3851994579197200), (8, 599792913268, 711354700080),
  (9, 608426293157, 6915980243060499), (7, 135513014510, 8281566292178139),
  (8, 300335450338, 4085314218484400), (7, 340544433462, 106649547719000),
  (7, 580782632115, 4540509568190280), (7, 382318715536, 105226838318840),
  (6, 457200111034, 5561838122811380), (6, 485942618671, 5216869273614759),
  (8, 34211699258, 7932309135491178), (6, 67823675060, 11001294461544899),
  (7, 412285655199, 4589273043315699), (7, 541918774642, 110937855209340),
  (7, 314407932401, 5196250718771040), (6, 513879522396, 7604495232053580),
  (7, 206447590782, 12477818365871879), (6, 161443478349, 344257494496540),
  (5, 201359728100, 2767697603685800), (7, 549596353318, 2375470674870219),
  (6, 71445272050, 2714728507176339), (5, 558153663720, 6805042387851159),
  (6, 472387999717, 5229024557183361), (5, 165565332809, 8048246652890938),
  (5, 467655631038, 18150594343892598), (5, 535730277715, 1256615169998280),
  (5, 224953488234, 5206136699446317), (4, 193085125724, 5215613652224860),
  (6, 523350745087, 12938013377768178), (5, 627908880897, 6694104532641819),
  (6, 86124028508, 5219547604404819), (4, 23100295125, 8958637352302698),
  (5, 423944686799, 10339601282468818), (4, 29398633221, 5110931080595839),
  (5, 38451698643, 95559974160860), (5, 575812965170, 10488130353139139),
  (5, 378671774559, 5217192494779040), (4, 532828531774, 2544800585526019),
  (5, 320016226905, 42659819087600), (5, 386489045633, 910390699411760),
  (4, 62543334322, 1132266409830440), (4, 607508617692, 211876386037840),
  (4, 243638238426, 7482113447975718), (4, 529735530203, 5217968761850640),
  (3, 319112063073, 1352175144159140), (4, 509850398144, 7783711123384659),
  (4, 181128771043, 10276253967101299), (4, 292685125689, 63989728631400),
  (4, 437998582536, 5218291983014920), (4, 90562468300, 7762381213840858),
  (4, 340653389629, 10541099449648599), (4, 556139758889, 2630120223701220),
  (3, 384817111044, 221875710418680), (4, 340685398189, 5238910537858640),
  (3, 364497587259, 6460784893354619), (3, 490907522926, 9979965906923798),
  (3, 33551297325, 1365586049117640), (3, 438738526963, 10890356606335558),
  (3, 271996542810, 3865405484155699), (3, 521639569130, 15086608680029298),
  (3, 579669813464, 13154889425996438), (3, 424481036893, 13610084775702319),
  (3, 474285528385, 5376487917843220), (3, 512230469501, 3237097899156560),
  (3, 491979299090, 1884922754997420), (3, 121305125502, 10530721230790539),
  (2, 261741407230, 7149299882347698), (2, 529927753161, 6474195798313119),
  (2, 259250638038, 15546803691925599), (2, 560083003625, 2651450133245020),
  (3, 414284031224, 8503442002596818), (2, 304958336441, 9302894846799239),
  (3, 616142033746, 7847700852016058), (3, 449779099000, 7614494556434419),
  (2, 274114399659, 13096920667296558), (2, 618606575651, 5112353789995999),
  (3, 168659744145, 2842109953444620), (2, 139891525246, 8170628436968799),
  (2, 136487993355, 7985278232000639), (2, 86961235954, 12948391596626239),
  (2, 16105302705, 2502140766438420), (2, 20969999844, 1980482729158280),
  (2, 99320491085, 16218875089859738), (2, 394039306142, 39131854712361297),
  (2, 180783236802, 2396913928119580), (2, 512099356220, 5132260990139639),
  (2, 280140642811, 6238909182935939), (2, 260965333457, 5260240447402440),
  (2, 272257468038, 799452844202420), (2, 584222491614, 10382192160120218),
  (2, 604515878720, 2503563475838580), (1, 234997564292, 8550238501632259),
  (1, 17409967102, 13149889763806018), (1, 311496551907, 2593412433108940),
  (2, 512532278095, 7826759076008058), (1, 549175475674, 10433194280539699),
  (1, 44808516059, 7805041032928458), (2, 192656028088, 10213285546210999),
  (2, 193198050022, 85319638175200), (1, 242972717822, 9413832702008578)]

/-- `vsop87d_dict.py` 4365-4394. -/
def mercuryB2_2 : List (ℕ × ℕ × ℕ) := [
  (2, 513550087739, 677071060124560), (1, 465441500870, 7825982808936459),
  (1, 399687455490, 18827665404017158), (1, 439069692330, 10437128232719658),
  (1, 164083661387, 7828337918562238), (1, 150558734911, 7837814871340781),
  (2, 627597485867, 9178546086631398), (1, 400786092689, 7824403966382280),
  (1, 170741856509, 2820666700195260), (1, 531900403501, 7814927013603736),
  (1, 140205887414, 4493713069154840), (1, 103752853909, 10434773123093879),
  (1, 66520680194, 41948464387520), (1, 246437105095, 10435549390165479),
  (1, 81835364761, 3519181013569180), (1, 33780670840, 8847699497093359),
  (1, 608346231930, 7026918098269838), (1, 186810476133, 12588756221081219),
  (1, 210468974660, 2561993815121980), (1, 399494842792, 7102503383312259),
  (1, 57714874874, 7198063357473118), (1, 566312942513, 9758090196505119),
  (1, 306688416266, 12990982474277639), (1, 566709359706, 43371173787680),
  (1, 91634007063, 10392501437542078), (1, 602359186416, 18155594006083018),
  (1, 144980129997, 2672780042788820), (1, 145442920390, 20759384658050018),
  (1, 112941846578, 6005589543648739), (1, 116964771504, 13499146920492979)]

/-- `vsop87d_dict.py` 4164-4395. -/
def mercuryB2 : List (ℕ × ℕ × ℕ) := List.flatten [
  mercuryB2_0, mercuryB2_1, mercuryB2_2]

/-- `vsop87d_dict.py` 4397-4449. -/
def mercuryB3_0 : List (ℕ × ℕ × ℕ) := [
  (235423, 35387524604, 2608790314157420), (160537, 0, 0),
  (18904, 436275460261, 5217580628314840), (6376, 250715381439, 7826370942472259),
  (4580, 614257817571, 10435161256629678), (3061, 312497552681, 13043951570787099),
  (1732, 626642412058, 15652741884944518), (857, 307673166705, 18261532199101939),
  (384, 614815319932, 20870322513259358), (159, 292437378320, 23479112827416777),
  (62, 597292432097, 26087903141574195), (54, 331612529961, 2719728169366760),
  (23, 274287679452, 28696693455731616), (17, 77798463435, 2497852458948080),
  (12, 624116133415, 5328518483524180), (8, 579551081392, 31305483769889036),
  (6, 581555175073, 3174923519072640), (4, 467212195693, 5111642435295920),
  (4, 336833718999, 7715433087262919), (3, 26522113546, 10324223401420339),
  (3, 79794705473, 2704350288318280), (4, 82832725003, 2153594964451540),
  (2, 257068697582, 33914274084046457), (2, 182309397040, 110937855209340),
  (2, 74986942696, 4762385278608960), (2, 361692083154, 5058673338786459),
  (2, 470766241226, 5106642773105500), (1, 333688549090, 12933013715577759),
  (1, 264641192612, 5783713833230060), (1, 493247555987, 2555821217647960),
  (2, 500344393497, 2042657109242200), (2, 480841415889, 2502852121138500),
  (2, 585039338716, 105938193018920), (1, 185116662745, 3741056723987860),
  (2, 397317842825, 2513230339996560), (1, 214494291300, 7937308797681599),
  (1, 253223701416, 4651447423399620), (1, 584921632430, 566133204915220),
  (1, 381958470276, 5313140602475700), (1, 105410669937, 158907289528380),
  (1, 139436798574, 5164611531805379), (1, 36358097174, 2264532819660879),
  (1, 276609972270, 2830666024576099), (1, 367689055309, 455195349705880),
  (1, 539398540975, 3285861374281979), (1, 373579127170, 2449883024629040),
  (1, 60289607514, 2606823338067440), (1, 578167324673, 2610757290247399),
  (1, 381913361795, 2609178447693220), (1, 564455351094, 36523064398203876),
  (1, 487981157471, 1021328554621100), (1, 244816565966, 2608402180621620),
  (0, 345284067711, 10546099111839019)]

/-- `vsop87d_dict.py` 4396-4450. -/
def mercuryB3 : List (ℕ × ℕ × ℕ) := mercuryB3_0

/-- `vsop87d_dict.py` 4452-4466. -/
def mercuryB4_0 : List (ℕ × ℕ × ℕ) := [
  (4276, 174579932115, 2608790314157420), (1023, 314159265359, 0),
  (425, 403419509143, 5217580628314840), (257, 20643590425, 7826370942472259),
  (116, 375237354024, 10435161256629678), (73, 118210375402, 13043951570787099),
  (51, 454581086194, 15652741884944518), (31, 144226942756, 18261532199101939),
  (16, 456372679459, 20870322513259358), (8, 134684622635, 23479112827416777),
  (3, 440269422669, 26087903141574195), (1, 469096566687, 2719728169366760),
  (1, 116082903756, 28696693455731616), (0, 144918128781, 2497852458948080),
  (0, 418046278690, 31305483769889036)]

/-- `vsop87d_dict.py` 4451-4467. -/
def mercuryB4 : List (ℕ × ℕ × ℕ) := mercuryB4_0

/-- `vsop87d_dict.py` 4469-4478. -/
def mercuryB5_0 : List (ℕ × ℕ × ℕ) := [
  (106, 394555784256, 2608790314157420), (75, 314159265359, 0),
  (22, 130514874546, 5217580628314840), (7, 499717136857, 7826370942472259),
  (4, 205662545278, 10435161256629678), (2, 543162058632, 13043951570787099),
  (1, 268052517331, 15652741884944518), (1, 600841870284, 18261532199101939),
  (0, 285941734701, 20870322513259358), (0, 596962108614, 23479112827416777)]

/-- `vsop87d_dict.py` 4468-4479. -/
def mercuryB5 : List (ℕ × ℕ × ℕ) := mercuryB5_0

/-- `vsop87d_dict.py` 2847-4480 `_planets[("Mercury", "B")]`. -/
def mercuryB : List (List (ℕ × ℕ × ℕ)) :=
  [mercuryB0, mercuryB1, mercuryB2, mercuryB3, mercuryB4, mercuryB5]

/-- `vsop87d_dict.py` 4483-4582. -/
def mercuryR0_0 : List (ℕ × ℕ × ℕ) := [
  (39528271652, 0, 0), (7834131817, 619233722599, 2608790314157420),
  (795525557, 295989690096, 5217580628314840), (121281763, 601064153805, 7826370942472259),
  (21921969, 277820093975, 10435161256629678), (4354065, 582894543257, 13043951570787099),
  (918228, 259650562598, 15652741884944518), (260033, 302817753482, 2719728169366760),
  (289955, 142441936951, 2502852121138500), (201855, 564725040350, 18261532199101939),
  (201499, 559227724202, 3174923519072640), (141980, 625264202645, 2497852458948080),
  (100144, 373435608689, 2153594964451540), (77561, 366972526976, 2042657109242200),
  (63277, 429905918105, 2555821217647960), (62951, 476588899933, 105938193018920),
  (66754, 252520309182, 566133204915220), (75500, 447428642962, 5111642435295920),
  (48266, 606824478778, 5328518483524180), (45748, 241480951648, 20870322513259358),
  (35224, 105917802674, 2704350288318280), (40815, 235882016415, 5783713833230060),
  (44234, 121957314874, 1587461759536320), (33873, 86381554651, 2566130495069820),
  (37203, 51733821470, 4762385278608960), (30092, 179500530627, 3741056723987860),
  (28417, 302063625668, 5106642773105500), (30903, 88366335532, 2449883024629040),
  (26105, 215021963174, 3960965458316560), (18699, 496496008403, 1132266409830440),
  (21270, 536857139841, 1352175144159140), (19422, 498378647655, 1021328554621100),
  (16941, 388765393402, 2661759410666880), (15109, 44510589948, 4651447423399620),
  (17087, 124077764194, 7720432749453338), (13940, 162573946865, 2714728507176339),
  (13382, 107657890477, 5164611531805379), (15012, 428173463507, 4196252073693740),
  (13977, 477056848793, 3332657873317420), (12794, 606437138766, 110937855209340),
  (13938, 199984876578, 2513230339996560), (16297, 263293587817, 1980482729158280),
  (11933, 236500939134, 455195349705880), (10612, 546555460932, 23479112827416777),
  (12754, 207613721222, 52969096509460), (12069, 284997619452, 7937308797681599),
  (9069, 121263611811, 1476523904326980), (9491, 83697007534, 1256615169998280),
  (9379, 541195286503, 8392504147387479), (7499, 244636811119, 3063985663863300),
  (7463, 553233943198, 3285861374281979), (7215, 117101960691, 1698399614745660),
  (8492, 356622930635, 7371175592766379), (7109, 532625264624, 42659819087600),
  (6863, 182313992707, 3630118868778519), (6560, 427818149213, 4307189928903080),
  (8853, 387737694074, 5058673338786459), (6885, 531108526630, 158907289528380),
  (5943, 406893157254, 5313140602475700), (7653, 391505031889, 5174920809227239),
  (6460, 607127449283, 7715433087262919), (5415, 520028107807, 6569755772473979),
  (5186, 356743214904, 628307584999140), (4090, 367593658710, 2264532819660879),
  (4075, 429142111073, 10329223063610759), (4428, 569109527379, 4589273043315699),
  (3426, 64911736234, 5270549724824299), (3354, 349345105494, 7260237737557039),
  (4120, 165386255382, 2544800585526019), (3261, 103195890028, 6805042387851159),
  (3278, 313863529552, 2587460404613620), (3054, 412578324522, 7773401845962799),
  (3614, 295861599353, 2830666024576099), (2820, 462628436074, 1884922754997420),
  (2746, 467880529205, 5323518821333759), (2713, 356874913980, 2606823338067440),
  (2507, 223312085627, 26087903141574195), (3044, 590613310181, 10546099111839019),
  (2755, 567587087632, 2610757290247399), (2267, 217941340037, 11001294461544899),
  (2274, 50173671332, 3237097899156560), (2741, 475427920262, 6349847038145279),
  (2792, 505148206806, 5122020654153979), (2557, 295114696617, 2608078959457339),
  (2135, 84621449019, 7667463652943878), (1971, 47407494310, 4873323133818299),
  (1965, 137420902653, 723867559160000), (2526, 34535290139, 2396913928119580),
  (2022, 33828477567, 9979965906923798), (1872, 393046425037, 3865405484155699),
  (1873, 69327393635, 2609178447693220), (1945, 237383894182, 677071060124560),
  (1863, 226591720786, 2608402180621620), (1750, 550651903992, 5672775978020720),
  (1971, 377455887616, 1931719254032860), (1672, 215275897581, 2651450133245020),
  (1703, 428965990785, 4085314218484400), (1657, 498021773372, 910390699411760),
  (2084, 219427123968, 2630120223701220), (1818, 420870869718, 2593833994443960)]

/-- `vsop87d_dict.py` 4583-4682. -/
def mercuryR0_1 : List (ℕ × ℕ × ℕ) := [
  (1780, 91702846577, 7921930916633119), (1525, 215720744047, 2767697603685800),
  (1533, 154503054415, 95559974160860), (1614, 127565104562, 2503563475838580),
  (1743, 68269002122, 7783711123384659), (1389, 485102048256, 6238909182935939),
  (1436, 5742216761, 2386914603738740), (1563, 584795233948, 2609501668857500),
  (1640, 466281337712, 2502140766438420), (1552, 283910580545, 10324223401420339),
  (1249, 197225274067, 9178546086631398), (1160, 173113341823, 3851994579197200),
  (1005, 105898314860, 12938013377768178), (1041, 278036322434, 21329909543800),
  (1105, 455512109515, 2601163707029860), (979, 243870419667, 7198063357473118),
  (853, 56334001923, 2076042703319140), (874, 453679970936, 63989728631400),
  (783, 369782403005, 7879340038981718), (772, 408714349549, 9413832702008578),
  (797, 26237215917, 9869028051714458), (965, 470784179954, 5153590899683439),
  (952, 253604676495, 2953047808653960), (773, 267893222158, 13154889425996438),
  (734, 89243669490, 10382192160120218), (668, 373113394924, 4684833017476560),
  (828, 288184821542, 1940667828817460), (622, 105579535631, 5941448187474840),
  (676, 450357599360, 2593412433108940), (602, 528399057704, 28696693455731616),
  (619, 144855037685, 7932309135491178), (691, 619733262608, 5196250718771040),
  (563, 522994296186, 13610084775702319), (782, 325257254691, 5005704242277000),
  (551, 33644229836, 5215613652224860), (705, 473705371920, 2624168195205900),
  (577, 585654734429, 211876386037840), (517, 393195379429, 10276253967101299),
  (635, 487720838965, 1243204265039780), (635, 181903685898, 7730810968311399),
  (543, 140877130839, 4493713069154840), (556, 544324390449, 8503442002596818),
  (496, 339004132624, 12588756221081219), (546, 478005317483, 2274729071487440),
  (520, 600172746972, 5216869273614759), (463, 367549187956, 2566841849769900),
  (452, 353009000682, 5845888213313979), (474, 594330512040, 5439456338733519),
  (559, 244355554028, 5219547604404819), (418, 373369494476, 10392501437542078),
  (397, 69014608020, 6474195798313119), (511, 588243734524, 4549458142974879),
  (412, 226754404446, 8281566292178139), (425, 524511927496, 5238910537858640),
  (482, 98165400059, 2565419140369739), (380, 374413132157, 5217968761850640),
  (359, 550961077408, 2655586813192860), (375, 197920050124, 14956319713460),
  (385, 588991948790, 12933013715577759), (348, 491064019959, 105226838318840),
  (417, 432916053867, 5112353789995999), (425, 143228996047, 5110931080595839),
  (464, 398651628073, 10530721230790539), (329, 520636278221, 5260240447402440),
  (354, 104383146533, 6694104532641819), (324, 162975761811, 8847699497093359),
  (378, 531676765847, 5217192494779040), (440, 146381183715, 8958637352302698),
  (355, 152732265492, 106649547719000), (302, 521113786435, 5376487917843220),
  (301, 502488829134, 11787336400788819), (351, 200433341730, 2439573747207180),
  (289, 619161799918, 2609453170047421), (286, 377170690304, 711354700080),
  (284, 310942616808, 4995704917896160), (385, 247184729453, 2523470675982219),
  (382, 97683830518, 5202624308601380), (271, 574710334372, 2545511940226100),
  (375, 55187466535, 4540509568190280), (267, 286410554301, 8048246652890938),
  (304, 600190488272, 221875710418680), (259, 182921035765, 2450594379329119),
  (251, 410979574073, 15546803691925599), (289, 305373259745, 2608127458267419),
  (242, 505501089774, 4215396900304900), (244, 215621668050, 344257494496540),
  (315, 261613386386, 5218291983014920), (256, 371117332461, 2561993815121980),
  (232, 221576531181, 1606606586147480), (233, 549033130906, 9806853671630539),
  (236, 408612620637, 2601312154300690), (225, 44449338810, 7614494556434419),
  (242, 329851820234, 668122485339960), (227, 163236736805, 7626607127560),
  (268, 109037236588, 1809337469954999), (255, 420635818545, 4418127784112419),
  (205, 100234895959, 2619099591579279), (228, 146077047931, 7762381213840858),
  (197, 136693360783, 2672780042788820), (259, 128296039354, 1365586049117640)]

/-- `vsop87d_dict.py` 4683-4782. -/
def mercuryR0_2 : List (ℕ × ℕ × ℕ) := [
  (197, 573307583430, 15763679740153858), (196, 6606260924, 4056525432477420),
  (187, 86187283408, 12022623016165999), (262, 414850032709, 2449171669928959),
  (244, 414399890076, 9524770557217918), (232, 545165695316, 3396799229491319),
  (206, 559196913034, 5561838122811380), (203, 164252462466, 5894651688439399),
  (187, 46291089182, 10488130353139139), (192, 182761158300, 2555109862947879),
  (200, 181376901527, 2586355834587229), (191, 557428963071, 532747610838280),
  (195, 331297083154, 12477818365871879), (169, 169270064342, 9069575207512038),
  (226, 132354627258, 5209954021187280), (177, 329620848300, 2513161398560359),
  (178, 254823795050, 2672068688088739), (167, 361983109002, 2375470674870219),
  (159, 348396967776, 2597769682035479), (150, 520072476078, 6915980243060499),
  (179, 394252428767, 12990982474277639), (166, 40320638452, 10090903762133139),
  (176, 297410942402, 2492542843716640), (154, 127206049137, 2598481036735560),
  (144, 189319156163, 6460784893354619), (145, 205409839424, 31305483769889036),
  (152, 487194153709, 10339601282468818), (137, 386782217557, 2460903656750980),
  (141, 199770625298, 16218875089859738), (185, 610038742063, 2343944831610119),
  (135, 127363012793, 5202202747266360), (127, 70464976569, 12885044281258718),
  (142, 150696203402, 5232958509363319), (126, 270555128398, 2820666700195260),
  (126, 161963252183, 4883519385644859), (123, 15629905349, 15197546535238638),
  (137, 177306412615, 3519181013569180), (147, 450311642422, 10541099449648599),
  (125, 338994834526, 7824403966382280), (119, 277644375904, 7825659587772179),
  (156, 296616703196, 7805041032928458), (145, 135569389554, 334061242669980),
  (126, 397006576134, 2942851556827400), (128, 541891989692, 2616268474014150),
  (132, 486901248209, 2471212934172840), (110, 387954702440, 8550238501632259),
  (127, 549703075555, 7828337918562238), (126, 94870979828, 12133560871375339),
  (129, 400691218396, 7293623331633979), (102, 50487650429, 13001291751699499),
  (104, 29849788751, 8454678527471398), (118, 76511176346, 13139511544947959),
  (120, 445261989231, 7102503383312259), (117, 331644134053, 2577151127191760),
  (110, 263249934300, 7158248457132299), (97, 266105435933, 15541804029735178),
  (113, 588733575390, 2640429501123080), (98, 201417457095, 7847700852016058),
  (103, 46416881502, 5175632163927320), (93, 237389467504, 41948464387520),
  (125, 187932536282, 2661048055966799), (95, 34221817875, 2650738778544939),
  (93, 380346806552, 2603790651966999), (91, 263082094391, 2842109953444620),
  (101, 520997240587, 43371173787680), (96, 447724179825, 7719721394753258),
  (108, 403679713919, 5174209454527159), (86, 514039556935, 2623746633870879),
  (92, 374335845403, 9082986112470538), (86, 186276413658, 2714017152476259),
  (102, 540465219833, 2613789976347840), (86, 401653667598, 1002183728009940),
  (100, 532142188276, 10890356606335558), (79, 468108496987, 2715439861876420),
  (92, 552103093635, 5132260990139639), (93, 420604773511, 3881335657634920),
  (78, 288001982141, 2941603879785439), (95, 444018421307, 11567427666460119),
  (104, 505004528676, 5048364061364600), (75, 178927060530, 14396126714946238),
  (86, 51423355089, 7826759076008058), (78, 466831173790, 11456489811250778),
  (78, 420137623264, 169216566950240), (86, 403030391951, 7811414622758799),
  (73, 227328552013, 5264377127350280), (82, 373510592110, 85319638175200),
  (71, 489150553141, 5059384693486539), (82, 522677693918, 2799910262479140),
  (93, 109569161440, 7721144104153418), (74, 197833720876, 7869030761559859),
  (82, 359482991001, 7149299882347698), (83, 410355702051, 9302894846799239),
  (83, 312647584943, 1447735118320000), (67, 24182046727, 6665315746634839),
  (74, 566833060422, 7827082297172339), (68, 198236355905, 7985278232000639),
  (64, 555115814500, 2576439772491679), (64, 615935356751, 7604495232053580),
  (87, 177296830923, 2544089230825939), (73, 206220281759, 11112232316754239)]

/-- `vsop87d_dict.py` 4783-4882. -/
def mercuryR0_3 : List (ℕ × ℕ × ℕ) := [
  (66, 228151075383, 788008915333899), (76, 265553220848, 3428217847478280),
  (78, 40338105541, 4984260989027639), (64, 87558639332, 18155594006083018),
  (86, 208697748680, 7825982808936459), (74, 86501751700, 5057961984086379),
  (82, 102659883956, 7482113447975718), (59, 245952644668, 5154302254383520),
  (62, 94273311929, 2534491308104160), (58, 295861781205, 5218243484204840),
  (58, 420402726578, 9635708412427259), (61, 281500265978, 2620234243025941),
  (57, 227689377996, 12415643985787958), (57, 437167017012, 158195934828300),
  (55, 12465494356, 2597346385288896), (54, 479303212221, 2616416921284980),
  (54, 305622204718, 2556532572348040), (55, 451497762833, 10371171527998279),
  (54, 387143037686, 1820781398823521), (54, 462784653733, 2588171759313700),
  (53, 432548272270, 7026918098269838), (50, 250066877650, 18372470054311278),
  (58, 206211216656, 159618644228460), (66, 520298814290, 2629408869001139),
  (47, 85039730966, 5210102468458109), (58, 143409045174, 2386604650697719),
  (48, 235364103056, 8170628436968799), (52, 19368783267, 9274106060792258),
  (53, 58517949906, 2662470765366959), (61, 261493039721, 4952735145767539),
  (47, 388384847335, 14631413330323418), (49, 620308247475, 3276912799497380),
  (53, 437486529196, 7818744335344699), (48, 597568482401, 5101333157874059),
  (48, 384102043742, 10223284870591838), (49, 505464216653, 799452844202420),
  (44, 542890224840, 8614379857806159), (58, 380571138237, 9902413645791399),
  (44, 402792920142, 14742351185532758), (58, 609746566424, 5216917772424839),
  (42, 438843836266, 22434479570190), (43, 157859396874, 2397625282819660),
  (49, 46973350644, 5170784129279399), (40, 441764731583, 5281570356946240),
  (46, 351985131014, 13096920667296558), (45, 435527612249, 3974376363275060),
  (45, 78163192715, 2513872753260440), (49, 90057831755, 63278373931320),
  (41, 404225615670, 5227889905736699), (39, 291829595120, 95628915597060),
  (43, 13178694356, 264845482547300), (38, 62377784752, 5069693970908399),
  (42, 275028269027, 2407934560241519), (40, 164358052897, 3962932434406539),
  (37, 575760879379, 2586749049913539), (51, 157829002915, 1272545343477500),
  (37, 162981695072, 12948391596626239), (45, 4645406242, 5121951712717779),
  (36, 9834373600, 2524182030682300), (49, 7681157050, 15086608680029298),
  (34, 456091607046, 53680451209540), (36, 559483746723, 5280859002246159),
  (39, 599500252470, 10413831347085879), (46, 70772608543, 15599772788435058),
  (33, 454716206885, 7841748823520739), (41, 492673567168, 5163900177105299),
  (32, 431372208361, 7810993061423779), (36, 569791953426, 2604977010593640),
  (34, 332168809248, 3547274414964940), (42, 486530735726, 5195146148744649),
  (33, 373733919231, 15493834595416138), (41, 238147812869, 6824187214462319),
  (35, 509571047220, 33914274084046457), (31, 431506703539, 5207271350892979),
  (32, 321248509301, 17806336849396059), (35, 504278529087, 18827665404017158),
  (41, 322838990589, 116247470440780), (30, 233061092140, 147886657406440),
  (32, 271244280066, 2578034552060460), (32, 380411460420, 15748301859105378),
  (30, 37624991562, 2642175908234360), (29, 582513433576, 10434449901929598),
  (31, 602215690021, 2619810946279360), (40, 102201252788, 2781902549450680),
  (30, 225849995020, 10437128232719658), (29, 267851330746, 11020632121940),
  (30, 134446903292, 137577379984580), (28, 462845152557, 7492309699802278),
  (37, 303899000872, 1161055195837420), (32, 26062549755, 5206559996192899),
  (38, 125704652400, 13149889763806018), (32, 104832153595, 2608641866886590),
  (37, 163595908508, 5080003248330259), (30, 15550783905, 10433194280539699),
  (26, 3549300809, 2481522211594700), (26, 103871337432, 2429264469785319),
  (26, 354557412535, 15610082065856918), (27, 60333270859, 11159028815789679),
  (31, 335540556110, 12699694076290558), (26, 573937805822, 5429457014352679)]

/-- `vsop87d_dict.py` 4883-4982. -/
def mercuryR0_4 : List (ℕ × ℕ × ℕ) := [
  (26, 279743885101, 8645798475793119), (26, 570579806927, 9767038771289718),
  (25, 234928986187, 2460192302050899), (25, 570613852018, 18150594343892598),
  (34, 23651097126, 2639546076254379), (25, 219241735868, 5225058788171570),
  (25, 182880416247, 7478159856730), (28, 57661358158, 12511203959948818),
  (24, 203938254170, 2652161487945100), (24, 505213893429, 10456491166173479),
  (23, 623874249128, 7561525459924959), (26, 334519516519, 11063468841628819),
  (26, 474840245512, 1336244970679920), (26, 15419927428, 2275976748529401),
  (27, 239568978424, 52257741809380), (28, 25542748453, 10309277421860),
  (25, 332961707416, 2828699048486120), (26, 207987634823, 2955014784743939),
  (32, 170464933285, 2608938761428249), (23, 416670746048, 2417670365835700),
  (24, 8582796512, 5185941441349179), (25, 527240695394, 2593685547173129),
  (24, 80363857551, 7782999768684579), (23, 230360039127, 7741051304297059),
  (30, 121286011206, 9711293697469679), (22, 482094558003, 1354142120249119),
  (23, 265250267545, 5249219815280499), (26, 626936948934, 2593982441714789),
  (24, 492454390318, 5269838370124219), (22, 123470921550, 10328511708910679),
  (23, 368813881444, 2672931670331319), (22, 195831083558, 2435678078864160),
  (22, 78346634338, 10420204936916218), (21, 252931432670, 46796499035440),
  (24, 184656751628, 7657154375522019), (25, 255626379808, 2482233566294780),
  (27, 361440862477, 2396202573419499), (23, 118953680418, 14176217980617538),
  (20, 549778171394, 11223170171963578), (23, 260719608050, 2575404720080480),
  (26, 75788900266, 5551641870984820), (26, 209375500363, 13499146920492979),
  (20, 335091650179, 5259529092702359), (21, 36570195077, 9758090196505119),
  (24, 51085875774, 11691776426627958), (21, 571018496974, 6005589543648739),
  (19, 56236491686, 5212580966124419), (19, 285801633295, 6037008161635699),
  (24, 350657176712, 7784422478084739), (20, 53533403977, 2694109952332620),
  (19, 625214103463, 2597350403466079), (22, 513145226592, 10434773123093879),
  (21, 413407823619, 10329934418310839), (19, 33492578967, 10201841617342478),
  (19, 567148210198, 5450900267602040), (18, 190051892916, 5232536948028299),
  (19, 427364751897, 12244498726584678), (18, 245675888957, 10435872611329758),
  (18, 105990359493, 2778006881107659), (18, 143297513339, 5324230176033840),
  (21, 299876487527, 2607367604757259), (23, 186389686355, 11678365521669458),
  (18, 487152831033, 17004917029103659), (19, 489400475242, 5322807466633679),
  (21, 247295566818, 2772697265876220), (20, 498762998978, 10477821075717278),
  (21, 146468188731, 14065280125408198), (17, 405153553008, 7666752298243798),
  (20, 480985268979, 5152879544983359), (22, 86617331302, 11911685160956658),
  (23, 208281937549, 5222580290505260), (18, 169333480892, 7668175007643958),
  (17, 209406764538, 6490125971792339), (19, 500011023502, 10594068546158058),
  (19, 74020534937, 3610974042167360), (17, 293246868693, 10213285546210999),
  (22, 355902023067, 10435549390165479), (21, 354390310557, 10657036967048359),
  (18, 465006394461, 6127971327726600), (19, 443905256177, 64701083331480),
  (17, 283124480600, 13265827281205778), (18, 289808596608, 2609183529483729),
  (17, 567044617806, 2578877674730500), (17, 537178978632, 7873167441507700),
  (15, 525910515843, 15024434299945379), (19, 172681089737, 15377881048480),
  (15, 216472550978, 2622201219115920), (15, 113029685380, 2504274830538660),
  (15, 231335544105, 5185230086649099), (19, 438254962804, 2418243837663380),
  (15, 516465400786, 2768408958385880), (17, 397954718583, 20764384320240439),
  (16, 574057898460, 2535202662804239), (14, 342441202713, 2682377965510599),
  (14, 530168284837, 74299006053260), (14, 250431306810, 3213213172294960),
  (14, 136632464908, 2391914265929160), (15, 607490514430, 7827033798362259),
  (19, 440557078960, 4995394964855139), (14, 65475293554, 32350541665740)]

/-- `vsop87d_dict.py` 4983-5082. -/
def mercuryR0_5 : List (ℕ × ℕ × ℕ) := [
  (14, 47093305165, 1789362780836560), (14, 133029112501, 12979961842155698),
  (17, 602915345940, 2666759072857300), (14, 117588054181, 10427534649502118),
  (14, 484032377923, 222185663459700), (14, 553694881682, 7763092568540938),
  (13, 559791238730, 20981260368468695), (13, 84042148682, 17351141499690177),
  (15, 396416547461, 5143281622261579), (15, 317020350946, 17695398994186718),
  (14, 291048815444, 7825708086582259), (13, 534915944924, 8017490890793978),
  (18, 165795375577, 2825666362385679), (13, 334629064183, 2550821555457540),
  (16, 132228458025, 2766986248985719), (13, 138990649917, 2502458905812189),
  (17, 201249037695, 2703707875054399), (15, 199208068531, 5238199183158559),
  (13, 232883800921, 2700583342755599), (14, 386914390591, 18208563102592478),
  (12, 397054224711, 7818892782615528), (16, 559174105029, 2544648957983520),
  (14, 70490117614, 17240203644480839), (12, 154422590258, 5225207235442399),
  (14, 347518139481, 2717761193276780), (12, 546223056321, 10779418751126219),
  (12, 576552608362, 5016724874398939), (16, 218648993322, 2630831578401300),
  (14, 272148386686, 2731172098235281), (13, 55524977232, 7593051303185058),
  (12, 266601602132, 13721022630911658), (11, 61596543052, 4429571712980940),
  (11, 476091715459, 15557181910783658), (14, 593896401871, 5229024557183361),
  (11, 92596625175, 2262565843570900), (12, 619273795549, 5165322886505459),
  (14, 79969658546, 2595379409198919), (11, 282093111356, 7710123472031478),
  (11, 126994666311, 2631224793727610), (13, 288923696437, 11254588789950538),
  (11, 605528757595, 2704419229754480), (12, 329626000869, 5206136699446317),
  (11, 358945976808, 5271261079524379), (14, 279036507500, 2388881579828719),
  (11, 415810059578, 4529065639321759), (11, 294979930726, 5885703113654799),
  (12, 220589728666, 3141537924995700), (12, 134841658603, 5196962073471119),
  (11, 329585795787, 2873635796704720), (11, 43538573957, 2444883362438620),
  (10, 285999162474, 13022621661243298), (13, 441880429822, 1995860610206760),
  (12, 596394058241, 2608397098831109), (10, 544297146700, 16329812945069079),
  (12, 157767582029, 9180513062721379), (10, 383536418151, 5122663067417859),
  (13, 34187342138, 15705710981453978), (10, 112787053523, 7890360671103658),
  (10, 467818130014, 211165031337760), (12, 356391619799, 7779574443436819),
  (11, 580720491261, 2610213023557580), (12, 580252382200, 2797280430499159),
  (11, 247026109919, 2601015259759030), (13, 460245036657, 2503245336464809),
  (10, 114221106164, 938484100807520), (13, 556953201474, 2290975735100660),
  (10, 435806585483, 15758680077963437), (10, 111553298844, 6583166677432480),
  (11, 467108617661, 5006415596977079), (11, 280726281395, 8159184508100279),
  (9, 47353753060, 12810631931499895), (9, 142459829123, 10450539137678158),
  (9, 237565722096, 7889649316403578), (9, 484820485208, 2491831489016559),
  (11, 623834008870, 3017189164827860), (11, 165565660037, 7803936462902068),
  (9, 365734666897, 15119994274106238), (9, 540966654859, 13045918546877075),
  (10, 87714716556, 7836680219894118), (9, 304701773654, 5132972344839720),
  (9, 196005885441, 2657553789282839), (10, 118004009296, 5027034151820800),
  (9, 548583841069, 13831960486120995), (10, 321154218694, 7730742026875199),
  (9, 555407965409, 819427533320860), (8, 135584545211, 1254648193908300),
  (9, 42023516699, 2722358001346740), (10, 176704509660, 7772690491262719),
  (9, 160501838348, 7761669859140778), (9, 546388323313, 1670306213349900),
  (9, 160520912676, 11789303376878797), (9, 623528739890, 84608283475120),
  (9, 566619352199, 5091023880452200), (9, 118753574623, 10419783375581198),
  (9, 69327774851, 2670964694241340), (10, 548870132496, 9432977528619739),
  (8, 117006056902, 7816061665050399), (9, 49965065220, 2757319384827740),
  (11, 620705720585, 2810288481337200), (11, 75657533913, 12832075184749259)]

/-- `vsop87d_dict.py` 5083-5182. -/
def mercuryR0_6 : List (ℕ × ℕ × ℕ) := [
  (8, 386430794820, 10391790082841998), (9, 364580324894, 7678484285065818),
  (8, 452722085618, 2746367694142000), (9, 173726961641, 2879151929624980),
  (11, 186762532326, 21436455718174578), (8, 317547134507, 5090312525752120),
  (8, 623140491980, 14807872442630), (8, 97646930359, 1920275325164339),
  (8, 87651427964, 15104766984290), (9, 155645109653, 2612603617721200),
  (8, 312232090039, 2200391463486980), (8, 345204671122, 2420300197815680),
  (8, 250177739941, 5195539364070959), (8, 420326276911, 5038054783942739),
  (8, 266681931912, 13043240216087017), (10, 261302801987, 2717098337386779),
  (8, 615791792940, 3769845509994840), (8, 536718741692, 3507737084700659),
  (8, 39542025081, 18357092173262799), (8, 437576068847, 12320084011627098),
  (8, 344870239791, 2640208932144380), (7, 588380837195, 5186824866217880),
  (7, 480640660702, 2611823000257860), (8, 582773614091, 332813565628019),
  (9, 253209611805, 2522759321282139), (10, 252793236150, 3583322369743080),
  (8, 411204744654, 5390692863608099), (8, 158745297967, 10101100013959699),
  (9, 257384727244, 212587740737920), (7, 246084982092, 5213767324751059),
  (8, 556577535390, 5068982616208319), (7, 598112141065, 5217973843641149),
  (10, 516567712694, 5563805098901359), (8, 467643518278, 7688793562487679),
  (7, 436322743599, 15588752156313117), (9, 68598593831, 3813303563780),
  (8, 46194680162, 18102624909573558), (8, 42442705032, 18218872380014337),
  (9, 357254516611, 126556747862640), (9, 165553917926, 6571722748563958),
  (10, 353066047636, 200855753915900), (7, 389373397550, 148598012106520),
  (10, 82550269560, 3976343339365039), (7, 433817871844, 12937302023068098),
  (7, 341340083585, 5248336390411799), (8, 123992323880, 7604185279012559),
  (7, 4567921269, 20618554843720), (7, 256169701158, 20759384658050018),
  (9, 197148507623, 36523064398203876), (7, 314813276839, 5206140717623499),
  (7, 486954611488, 2735106050415239), (8, 627520424489, 20415127163553478),
  (7, 546143749214, 2598594062330859), (8, 444335543148, 2605757628056979),
  (7, 100677483843, 12938724732468258), (8, 22314041177, 5004992887576919),
  (7, 398224449185, 1367553025207620), (7, 434489404354, 16785008294774959),
  (9, 71471851401, 23373174634397858), (7, 169935809006, 5408700576636560),
  (7, 621044393135, 20304189308344138), (7, 253524305485, 8038247328510099),
  (7, 3218225075, 3128127020037200), (7, 526037977949, 7833849102328988),
  (7, 352744190481, 5250966222391780), (7, 524771876203, 179525844372100),
  (7, 520875856726, 16107937234650398), (7, 319471628666, 2407292146977640),
  (6, 158096793180, 14398093691036216), (9, 70414754528, 2516997285559240),
  (6, 15264531683, 5291168279668019), (7, 428578455720, 5113065144696079),
  (7, 342650023556, 2939636903695460), (7, 412959254769, 5217432181044009),
  (8, 379812131071, 13767819129947099), (7, 570602822567, 974532055585660),
  (8, 14316432919, 13672259155786238), (7, 378832454636, 2618986565983980),
  (7, 544664616173, 2756676971563859), (6, 53269408847, 20817353416749898),
  (7, 395192199993, 14520475475114079), (6, 180610265750, 2683089320210680),
  (8, 580105964058, 2577371696170459), (6, 120705629404, 2673491397488900),
  (8, 387508349031, 5204169723356339), (7, 187429126900, 190546476494040),
  (7, 568938243001, 15874617595363196), (8, 339884199213, 7815350310350319),
  (7, 120867598891, 6156064729122359), (8, 330580293572, 13041984594697120),
  (7, 39338960799, 219908734328700), (6, 317982806365, 7794731755506598),
  (8, 88585179650, 22041264243880), (8, 146508855917, 8736761641884019),
  (6, 60809363482, 11882896374949679), (8, 553182088929, 5381487580033639),
  (7, 165646088833, 19613707343261078), (6, 574552748087, 5550394193942859),
  (6, 143996863707, 233319639287200), (6, 191186990644, 13065281480330898)]

/-- `vsop87d_dict.py` 5183-5282. -/
def mercuryR0_7 : List (ℕ × ℕ × ℕ) := [
  (6, 506448767269, 5044468393021580), (6, 109838300878, 18367470392120858),
  (7, 35338852938, 10393212792242158), (6, 28924808590, 5437489362643540),
  (6, 272829193454, 7625515188556358), (6, 392290484480, 13028995251073639),
  (7, 127402494790, 4604650924364180), (7, 296149281662, 5275549387014719),
  (8, 223784693584, 2546615934073500), (6, 178075029765, 7878628684281638),
  (8, 471972114899, 2501429411738339), (6, 552798470860, 10349841618454478),
  (8, 543345902063, 94917560896980), (6, 555571041746, 13044662925487179),
  (7, 536488899884, 7794020400806518), (6, 52080930820, 2500482290928060),
  (6, 348878406062, 12366880510662538), (8, 302023688443, 2607685744131030),
  (8, 531586228888, 2438862392507099), (6, 506257578673, 7846989497315978),
  (6, 479504045120, 5217729075585669), (6, 457296057068, 3521147989659159),
  (6, 537176342301, 5309373656913019), (6, 426973755729, 13036324963659538),
  (6, 575364706874, 7858010129437919), (6, 199314462977, 13043563437251298),
  (6, 155918658153, 3945035284837340), (8, 477256284659, 14287155835826878),
  (6, 609530056324, 10339532341032618), (6, 129134609458, 10297583876645098),
  (6, 183917095242, 2440285101907260), (5, 363216834248, 4398153094993980),
  (5, 564850202903, 2877462523611540), (7, 422124824964, 2609894884183810),
  (5, 585936922514, 15631411975400719), (5, 497283396704, 10265944689679438),
  (5, 146473339833, 18165972224941078), (6, 71584342921, 10427683096772949),
  (7, 249362242764, 5143992976961659), (6, 2944876240, 2004367456019880),
  (6, 219480801460, 1241237288949800), (7, 328347851449, 18314501295611398),
  (5, 346807375357, 5053673676596039), (6, 620804958899, 11439910691340),
  (6, 226035174588, 10371882882698359), (7, 365318062648, 14300566740785378),
  (5, 12859263642, 5159611869614960), (7, 75531928973, 7752071936418998),
  (5, 152974136650, 2672489941359840), (7, 381960920375, 6219764356324779),
  (5, 508212104486, 5260951802102519), (5, 449337901115, 5000704580086580),
  (5, 503210861040, 104515483618760), (5, 627674019656, 127268102562720),
  (6, 384313039676, 8160432185142238), (6, 327974922227, 14491686689107098),
  (5, 50987626702, 29912639426920), (6, 510596879808, 7831370604662679),
  (5, 414575201906, 5386797195265079), (7, 453402175332, 16674070439565618),
  (5, 557648480152, 10626281204951399), (7, 308562485832, 5202772755872209),
  (6, 281224506925, 2545090686955000), (5, 151400872659, 2819955345495179),
  (6, 158495517428, 4780392991637420), (6, 279561551205, 5228601260436779),
  (7, 180630878142, 2354965463732060), (7, 372396318065, 19848993958638258),
  (5, 574129147264, 10318913786188899), (6, 294825789213, 5625979478985279),
  (5, 496546514085, 7841327262185719), (5, 178518845730, 12958631932611899),
  (5, 31701812829, 7880051393681798), (5, 55478931159, 5281721984488739),
  (6, 118448496437, 2560026839032000), (5, 42862127579, 17917274704605396),
  (6, 374336258475, 2624720487636640), (5, 246583763315, 12375829085447139),
  (6, 509461941443, 5312498189211819), (6, 42320281908, 13044339704322898),
  (6, 257896380153, 2601460601571519), (5, 223635663946, 2451305734029200),
  (5, 598752668018, 10434498400739678), (6, 32131472009, 10287274599223239),
  (5, 195885559875, 5377199272543299), (7, 216257501519, 5202475861330549),
  (6, 137111815532, 5112035650622229), (5, 15128494504, 7868319406859778),
  (5, 400810087423, 4871356157728320), (6, 145883115780, 7615205911134499),
  (5, 172421399237, 2830975977617119), (5, 71424864998, 10275542612401219),
  (6, 3283607980, 7814927013603736), (6, 269429372458, 7837814871340781),
  (6, 112570261398, 2564707785669659), (5, 360259399819, 1104570026390),
  (6, 483171247280, 24045246032331996), (5, 371949948652, 2641140855823160),
  (5, 455172986205, 7933020490191258), (5, 84232799985, 2455192639860479)]

/-- `vsop87d_dict.py` 5283-5382. -/
def mercuryR0_8 : List (ℕ × ℕ × ℕ) := [
  (5, 374067330742, 5279755008398759), (5, 292277012561, 5419078795494619),
  (5, 396038779086, 2565737279743509), (5, 454502031861, 10276965321801379),
  (6, 235342867622, 2766524668402200), (5, 372877345305, 7821371280281838),
  (5, 619447408823, 2619168533015479), (4, 53733592588, 7731453381575279),
  (4, 139917225370, 2629015653674829), (5, 485332036328, 5434456676543099),
  (6, 92030946706, 2333635554188260), (6, 37487337241, 5326551507434200),
  (4, 201983013209, 15654708861034496), (5, 613113074115, 2602617716683400),
  (4, 494928690334, 5266344103440259), (5, 40443457223, 2809646068073319),
  (4, 440405080911, 13059329451835579), (4, 417440698686, 9191956991589899),
  (5, 371777436660, 7038362027138360), (5, 152885825328, 5110219725895759),
  (4, 171609047005, 2376295373275860), (4, 55287089413, 2693398597632540),
  (5, 602225706023, 12822075860368418), (5, 178226900229, 18716727548807819),
  (5, 332000517354, 4542476544280259), (5, 464166221826, 2482474577899600),
  (5, 345997061965, 4884767062686820), (6, 262272580920, 5217187412988529),
  (4, 362789650971, 5302900266490040), (6, 253652345505, 5219003337714999),
  (4, 8235213515, 5822003486452380), (6, 256621666334, 5187667988887919),
  (5, 504323059321, 4149455574658299), (4, 342433134364, 5331148315504160),
  (5, 560899913389, 191119948321720), (4, 113990612191, 2618388236879199),
  (4, 424142693734, 18985399758261938), (4, 21521651200, 1933686230122839),
  (5, 30306745520, 10388364757594238), (4, 609719517639, 7741762658997139),
  (4, 338148734662, 31639186965660), (4, 140344660688, 2588564974640009),
  (6, 254556610763, 5406070744656579), (5, 462289027765, 7833997549599818),
  (4, 606868163269, 8494493427812219), (5, 64970018860, 317814579056760),
  (4, 548109256360, 7822557638908479), (4, 376404568854, 15308484390447979),
  (4, 18748530762, 5248999246301800), (5, 174044114280, 7931597780791098),
  (4, 606406108213, 5216157918914679), (5, 28595106407, 2616120026743319),
  (4, 211074347112, 18938603259226495), (4, 59715530740, 1634258258571760),
  (4, 391091220587, 10170315774082378), (4, 116130290140, 5026460679993120),
  (4, 551188515445, 7804329678228378), (5, 439350322600, 5375776563143139),
  (4, 515437140585, 2428553115085240), (5, 215280343086, 4899766049258080),
  (4, 535316514819, 10498439630560997), (5, 575390640070, 5184195034237900),
  (4, 152206374281, 2626798027185880), (4, 466563868021, 10412726777059489),
  (4, 236671017385, 1966976089979), (4, 510954286080, 3172293687092660),
  (4, 154518951672, 5220613314415280), (4, 416791904155, 13028573689738619),
  (4, 293299901703, 3177553351052620), (5, 447247592301, 5111249219969609),
  (4, 241568769208, 5153439272140940), (4, 174441095464, 2624831051095900),
  (4, 523856038893, 5239621892558720), (4, 412254586219, 2744165188659100),
  (5, 517529407091, 1936718916223280), (4, 421064422396, 2627935140768579),
  (5, 441570881449, 7805752387628538), (4, 530327887066, 2567235065096209),
  (5, 110382058499, 3190301400121119), (5, 271619626622, 2495222626968100),
  (4, 228793023586, 23590050682626116), (4, 158884724433, 12874735003836859),
  (4, 578862899204, 2277943724619380), (4, 422021430561, 173112235293260),
  (4, 468318371027, 10381480805420138), (4, 329575966354, 7613783201734339),
  (4, 547487283809, 13235071519108818), (4, 299265295426, 7774113200662879),
  (4, 347889610610, 5366109698985160), (4, 476216346874, 15674071794488319),
  (4, 147799681769, 12041767842777158), (4, 278305398087, 13376765136415116),
  (4, 287953962922, 2586207387316400), (4, 192972990240, 1540665260500879),
  (5, 181394930430, 13086611389874699), (4, 262752187758, 2460261243487099),
  (4, 312567603415, 2089453608277640), (4, 100432915295, 14928874325784518),
  (4, 347489986602, 2611420146137400), (4, 427251739299, 10499150985261079)]

/-- `vsop87d_dict.py` 5383-5482. -/
def mercuryR0_9 : List (ℕ × ℕ × ℕ) := [
  (4, 220022040184, 5207384376488279), (4, 377568584773, 1422709400160),
  (4, 165179392234, 5100621803173979), (4, 72729563393, 2586504281858059),
  (4, 561140287619, 5325888651544199), (4, 155115346866, 5343896364572659),
  (5, 91157457367, 2566523710396129), (5, 611073147567, 15650774908854539),
  (3, 312711312875, 8046279676800959), (4, 221068358470, 7677772930365738),
  (4, 82472101949, 3068985326053720), (4, 385651603357, 2651381191808820),
  (3, 376311835707, 7775054398390), (4, 76897521016, 2338428698689860),
  (3, 458555781046, 5750328239153120), (4, 382967402925, 10445470534051539),
  (3, 247448927310, 7795615180375299), (4, 493160467297, 39131854712361297),
  (4, 156118199279, 105544977692610), (4, 77257538538, 7999483177765518),
  (5, 311675458540, 2614962911631439), (3, 405641745083, 10424851979207818),
  (4, 297133561512, 3011016567353840), (4, 560420829330, 15652030530244438),
  (4, 559378669038, 5131549635439559), (3, 533733887891, 5230991533273340),
  (3, 547155908699, 14984619399604558), (3, 19039417498, 5029090511973100),
  (3, 55626990901, 13000580396999417), (4, 122491945176, 2592749577218939),
  (4, 183119228357, 13202858860315479), (4, 378910193450, 2597058327335399),
  (4, 412310730501, 3385626969826880), (4, 329497466474, 20827662694171758),
  (3, 123800163682, 19393798608932378), (4, 381093761011, 4942425868345679),
  (4, 617742034131, 7699102839909539), (3, 237855052298, 2545905155552409),
  (3, 6662548789, 5482426110862140), (3, 882668027, 7857126704569219),
  (4, 350355655289, 3348035754365900), (4, 142998120813, 2344656186310200),
  (4, 457967744099, 5221393931878620), (4, 430793307856, 253824850425360),
  (4, 264175466237, 8059690581759460), (4, 223067570586, 10481957755665119),
  (4, 210867686930, 2733139074325260), (3, 374321552731, 2847109615635040),
  (3, 535951703976, 23368174972207438), (4, 144726666359, 2590782601128960),
  (3, 77055249403, 2338945169419700), (4, 553731910534, 5209805573916449),
  (4, 271065844730, 10767974822257696), (3, 485884222947, 106331408345230),
  (3, 610322230645, 4809181777644400), (3, 57378510632, 15419422245657316),
  (3, 465504051632, 2589645487546260), (3, 207685199898, 393215326310),
  (4, 467601599622, 1807370493865020), (3, 462237776277, 2171602677480000),
  (3, 240811934972, 7699814194609619), (4, 145941637429, 107360902419080),
  (3, 406965227350, 3280861712091560), (3, 354974279869, 2340118104703300),
  (3, 594935193305, 675104084034580), (3, 432590129932, 5240015107885030),
  (3, 193788940079, 4545509230380700), (3, 608303870194, 5339962412392700),
  (3, 445999574391, 12709890328117118), (3, 545176028820, 2606160482177439),
  (3, 226429696537, 2704702600153180), (4, 193735592711, 2660336701266720),
  (3, 294612910423, 2703997976483379), (4, 364314833794, 86030992875280),
  (4, 204162116492, 2762387988454360), (4, 102413610685, 2599192391435639),
  (4, 372190941745, 5125787599716660), (3, 83533616968, 7826222495201428),
  (4, 584174581609, 2565025925043430), (3, 386698088130, 5677775640211140),
  (4, 94091162922, 2373503698780239), (3, 287479269049, 15985555450572536),
  (4, 292372103776, 10435824112519680), (3, 550683793531, 2592860140678200),
  (3, 150282981980, 437187636677420), (3, 210941795435, 6017033472517260),
  (3, 171064218785, 17006884005193636), (3, 197431548371, 10442639416486409),
  (3, 296711706073, 2598412095299360), (3, 186795145608, 12606763934109679),
  (3, 474630310296, 5487942243782400), (4, 371365034796, 2958047470844380),
  (3, 420767161544, 12884332926558638), (3, 91166163253, 7646845098100159),
  (3, 620945940475, 5016082461135059), (3, 610137777265, 5216476058288449),
  (3, 31852065143, 2863257577846660), (3, 288816579373, 2736058416720139),
  (3, 529083364884, 275154759969160), (3, 87901414893, 169927921650320)]

/-- `vsop87d_dict.py` 5483-5582. -/
def mercuryR0_10 : List (ℕ × ℕ × ℕ) := [
  (3, 12942378280, 20337574902421077), (3, 188640533644, 2735347062020059),
  (3, 377660990144, 2478707632336920), (3, 526339958526, 28918569166150296),
  (3, 134477523795, 116958825140860), (3, 7928565452, 10424140624507738),
  (3, 447916732925, 3863438508065720), (4, 137420794262, 12885755635958798),
  (3, 208343776186, 5047652706664519), (3, 423656246406, 7635824465978218),
  (3, 554498269246, 6192112683900499), (3, 380268685478, 2538426995695679),
  (3, 522182880098, 346224470586520), (3, 61479556097, 17129265789271498),
  (3, 312135348664, 16281049469943657), (3, 422351187737, 6760875720795698),
  (3, 530037747699, 5155406248230919), (3, 458024970278, 3410210134449819),
  (3, 207639441349, 2407223205541439), (3, 465503825059, 10487418998439058),
  (3, 453866780815, 2890873428570040), (3, 100191312140, 15546092337225519),
  (3, 205553254051, 17633224614102798), (3, 394870291510, 15547515046625677),
  (3, 143273740893, 2471924288872919), (3, 23823986548, 2451055959912640),
  (3, 521326346293, 163906951718800), (3, 253461972944, 5186162010327879),
  (3, 413978656372, 3391799567300899), (3, 434295741397, 1696432638655680),
  (3, 28015371448, 16909357054942798), (3, 249492450438, 63699627202420),
  (3, 420183911478, 14964226895951436), (3, 73100534966, 3567944488694599),
  (3, 118977971170, 14316496914264598), (3, 117691552034, 5214547942214399),
  (3, 494963823249, 4963755777889479), (3, 300732745961, 2470501579472759),
  (3, 576323456196, 4997671893986139), (3, 483245208446, 15652353751408719),
  (2, 369719041336, 2461615011451060), (3, 18439316147, 7859756536549199),
  (3, 498373933018, 10212975593169978), (3, 2228487734, 148447270830),
  (3, 406250318984, 9746646267636596), (3, 265726234287, 1370585711308060),
  (2, 12883868680, 14975670824819959), (3, 282299563379, 5313209543911899),
  (3, 599061509510, 2986433402730900), (3, 393018711070, 1709843543614181),
  (2, 422698039366, 1068125053656540), (2, 131889013785, 2557243927048119),
  (2, 349816744164, 5109272605085480), (3, 152361691660, 7826519389743089),
  (3, 52188463522, 5227776880141400), (3, 380600862869, 2512450043860279),
  (3, 614366757538, 4815354375118419), (2, 58190501461, 2757388326263939),
  (3, 563901497713, 10647037642667518), (2, 336639066096, 4243048572729180),
  (3, 308628517069, 408398850670440), (2, 613024035669, 10403522069664019),
  (3, 181280963372, 10440160918820098), (3, 334404708133, 13002003106399579),
  (2, 122333771717, 7609494894243999), (2, 63542334090, 148529070670320),
  (3, 524568241255, 688514988993081), (3, 246305012048, 13388209065283638),
  (2, 84094631125, 16376609444104518), (3, 212660879166, 4279096527507320),
  (2, 298805690719, 2623598186600050), (3, 326197855217, 15653130018480319),
  (2, 450734435605, 2524893385382380), (2, 432859791317, 168505212250160),
  (2, 562335584014, 2821378054895339), (2, 387492323552, 19959931813847595),
  (2, 260597304148, 2671357333388659), (3, 415733644316, 5168817153189420),
  (3, 433101389874, 22002588923089796), (2, 446567523081, 3112749138988719),
  (2, 366265576771, 2639718146422999), (2, 468312774052, 4985085687433279),
  (2, 451215350981, 5281280255517260), (3, 356621882535, 15440865498906678),
  (2, 395708432187, 157484580128220), (2, 241940194318, 10466800443595338),
  (3, 24921211552, 2577862481891839), (2, 318370791629, 20711415223730978),
  (2, 417768592199, 5173498099827079), (2, 174283332135, 7653258707178998),
  (2, 136339547692, 604422858137540), (2, 282219230315, 6378635824152260),
  (2, 527165023098, 7508556363415498), (2, 576735720320, 2566199436506020),
  (2, 524666183170, 2473415439655740), (2, 531625926462, 2499819435038059),
  (2, 17868115875, 17728784588263658), (3, 547127542511, 2738872995977919),
  (2, 248055036253, 2554398508247800), (2, 16253031708, 2311329318696320)]

/-- `vsop87d_dict.py` 5583-5682. -/
def mercuryR0_11 : List (ℕ × ℕ × ℕ) := [
  (3, 168453793975, 270361615467560), (2, 117069889009, 5355158008299420),
  (3, 306893058902, 23023917477710896), (3, 500145362139, 18049655813064099),
  (2, 190098213386, 2027279228193720), (3, 506877735444, 44082528487760),
  (2, 133626564472, 19615674319351057), (2, 450940380454, 6553825598994759),
  (2, 455891488212, 232494940881560), (2, 21025125051, 1822748374913500),
  (2, 58359043648, 15637785565231058), (2, 457189351312, 2692687242932459),
  (2, 379747475767, 6585133653522459), (2, 30139015500, 5095198844236979),
  (2, 394570007959, 22568722128005016), (2, 99415397716, 206497829370200),
  (2, 349827019018, 7890512298646157), (2, 416512398869, 2486408530079559),
  (2, 47605198546, 10769222499299659), (2, 2213914405, 19709267317421938),
  (2, 35795159068, 10430161594439259), (2, 254426644231, 24926847945736776),
  (2, 35872697789, 2546223294926180), (2, 3956368481, 2418955192363460),
  (2, 200682967230, 2878635458895140), (2, 164612572499, 4073870289615879),
  (2, 177509184801, 2259533157470459), (2, 193881159123, 7869742116259939),
  (2, 106567957268, 2156224796431520), (3, 458782698256, 15695401704032118),
  (2, 84740706727, 2449489809302729), (2, 598697403459, 28352435961235073),
  (2, 402135788869, 2623895081141709), (2, 398649649262, 2480810856894620),
  (2, 306252327958, 5736917334194619), (2, 610258403438, 7811563070029629),
  (2, 19431714321, 5548427217852879), (2, 426819419359, 9098916285949759),
  (2, 294941610280, 2206564060961000), (2, 453722544295, 5235588341343300),
  (2, 197399498955, 43053034413910), (2, 199872081555, 2493254198416719),
  (2, 37032643194, 2650027423844859), (2, 383480132336, 30755762096960),
  (2, 581356382744, 5153881001112419), (2, 620773606719, 4999662190420),
  (2, 240589345998, 7792985348395319), (2, 451719783127, 2106798465416099),
  (2, 206311358499, 2323326276766400), (2, 29430089395, 2476522549404280),
  (2, 221513587213, 2567553204469980), (2, 229291278322, 2741058078910560),
  (2, 239356701559, 24298540360737636), (2, 428957020884, 7137855953479178),
  (2, 541199778568, 2370471012679799), (2, 54252133289, 388133535800),
  (2, 588236623932, 5207202409456780), (2, 578749542412, 7837391574594198),
  (2, 569226787602, 5104012941125520), (2, 442185841709, 9369666034953119),
  (2, 515491529148, 7811266175487968), (2, 230493903824, 2788316158529519),
  (2, 553948896377, 8725317713015496), (2, 475957265478, 5233621365253320),
  (2, 608199781417, 1804337807764579), (2, 73324052336, 2575728417791599),
  (2, 91928644358, 5218685198341230), (2, 322142261212, 10477109721017198),
  (2, 201671301400, 4656447085590040), (2, 439545799671, 4152085406638280),
  (2, 252858429504, 2614099929388859), (2, 207561943546, 5365467285721279),
  (2, 8977124652, 2513582651831460), (2, 167350036401, 6682660603773296),
  (2, 457268426145, 15811649174472898), (2, 284194927894, 7824948233072099),
  (2, 307002924674, 2343233476910039), (2, 411559657607, 12355436581794015),
  (2, 5687800902, 2603480698925980), (2, 428354458896, 2448460315228879),
  (2, 324222429199, 2150965132471559), (2, 252315832958, 21061442461581076),
  (2, 444247371827, 14853289040742096), (2, 11737800376, 14650558156934578),
  (2, 241371362390, 5486252837768960), (2, 466022680664, 24722317092456557),
  (2, 379260774499, 330846589538040), (2, 583454304626, 297460995461100),
  (2, 537878500160, 7762229586298359), (2, 163153524958, 9997973619952259),
  (2, 518613735503, 5060096048186620), (2, 255420547959, 7606462208143558),
  (2, 405996888958, 2450276239955349), (2, 247809526116, 17996686716554638),
  (2, 125528265056, 5091264892057020), (2, 75306774592, 23574672801577636),
  (2, 297464643769, 3121954422563180), (1, 17722772219, 15843861833266239),
  (2, 494589808424, 16895946149984296), (2, 63110575282, 41555249061210)]

/-- `vsop87d_dict.py` 5683-5697. -/
def mercuryR0_12 : List (ℕ × ℕ × ℕ) := [
  (1, 77799418557, 29939897720771392), (2, 597867896248, 16472169418265378),
  (2, 562955025847, 2181980896338059), (1, 493638931294, 2799336790651460),
  (2, 622578827437, 7493557376844239), (2, 103965665113, 180237199072180),
  (1, 561994219678, 5069051557644519), (2, 502281046549, 42266603761290),
  (1, 357619837497, 20965882487420218), (2, 11249539090, 3846994917006779),
  (2, 62470424533, 5174527593900929), (1, 71806518278, 2892840404660019),
  (2, 391669753023, 7635250994150538), (2, 305277164813, 22582926841020),
  (1, 433602746737, 460195011896300)]

/-- `vsop87d_dict.py` 4482-5698. -/
def mercuryR0 : List (ℕ × ℕ × ℕ) := List.flatten [
  mercuryR0_0, mercuryR0_1, mercuryR0_2, mercuryR0_3, mercuryR0_4, mercuryR0_5, mercuryR0_6, mercuryR0_7, mercuryR0_8, mercuryR0_9, mercuryR0_10, mercuryR0_11, mercuryR0_12]

/-- `vsop87d_dict.py` 5700-5799. -/
def mercuryR1_0 : List (ℕ × ℕ × ℕ) := [
  (217347739, 465617158663, 2608790314157420), (44141826, 142385543975, 5217580628314840),
  (10094479, 447466326316, 7826370942472259), (2432804, 124226083435, 10435161256629678),
  (1624367, 0, 0), (603996, 429303116561, 13043951570787099),
  (152851, 106060779810, 15652741884944518), (39202, 411136751416, 18261532199101939),
  (17760, 454424653085, 2719728169366760), (17999, 471193725810, 2497852458948080),
  (10154, 87893548494, 20870322513259358), (8086, 300540854890, 2502852121138500),
  (4444, 213639058123, 2042657109242200), (4393, 148074475165, 5106642773105500),
  (3510, 321171223697, 105938193018920), (3133, 523846336855, 2153594964451540),
  (2650, 392968881423, 23479112827416777), (2498, 202623950395, 2449883024629040),
  (2011, 123911360588, 5328518483524180), (1963, 404524902962, 566133204915220),
  (1546, 261849590442, 2661759410666880), (1542, 235659537465, 2704350288318280),
  (1417, 137876323533, 110937855209340), (1295, 519094850935, 4651447423399620),
  (1241, 21246226135, 1132266409830440), (1090, 623733263925, 2714728507176339),
  (1271, 56437938715, 2513230339996560), (1120, 86374628388, 5783713833230060),
  (1005, 328272284427, 3741056723987860), (1177, 453194022227, 7715433087262919),
  (841, 596261035419, 1476523904326980), (935, 237277497611, 2566130495069820),
  (742, 77751594919, 3285861374281979), (736, 406885296570, 158907289528380),
  (712, 270884051645, 1698399614745660), (863, 555308682281, 2555821217647960),
  (707, 92992556568, 3063985663863300), (696, 69734796212, 26087903141574195),
  (678, 202193885930, 2606823338067440), (608, 85708468483, 455195349705880),
  (546, 538138962861, 2609178447693220), (608, 365993973133, 2544800585526019),
  (597, 464867954048, 2608078959457339), (572, 350125649521, 1021328554621100),
  (515, 483662922562, 5058673338786459), (532, 521855381213, 2264532819660879),
  (572, 62751016416, 1352175144159140), (516, 389421000089, 8392504147387479),
  (507, 555466020276, 1256615169998280), (606, 450215566301, 2830666024576099),
  (533, 93587795381, 2610757290247399), (435, 579043985706, 4307189928903080),
  (436, 586659160961, 2503563475838580), (429, 26260280461, 3630118868778519),
  (472, 600507778421, 7720432749453338), (443, 386758570847, 2608402180621620),
  (487, 423950195756, 2609501668857500), (406, 560324652352, 5270549724824299),
  (523, 6439941262, 2502140766438420), (379, 195647626585, 7260237737557039),
  (390, 381996185881, 42659819087600), (418, 277521418660, 4196252073693740),
  (453, 72803137250, 52969096509460), (358, 600165335616, 3332657873317420),
  (347, 139524259509, 2396913928119580), (340, 24111380317, 2630120223701220),
  (325, 478747749132, 2386914603738740), (290, 304044859601, 5323518821333759),
  (326, 130033833957, 10324223401420339), (316, 222791434675, 1931719254032860),
  (264, 393160763696, 677071060124560), (332, 359235758173, 5122020654153979),
  (223, 276528831516, 10329223063610759), (215, 397996009773, 5672775978020720),
  (235, 224050503260, 2587460404613620), (215, 616660008496, 5164611531805379),
  (208, 274551899929, 4085314218484400), (204, 344654782597, 910390699411760),
  (197, 80026289238, 2767697603685800), (205, 320844012088, 1884922754997420),
  (196, 199924288764, 4873323133818299), (218, 211865566044, 7371175592766379),
  (189, 65681038131, 11001294461544899), (207, 589082708705, 3174923519072640),
  (184, 374837387583, 28696693455731616), (174, 581264188702, 6805042387851159),
  (163, 400380715262, 7937308797681599), (152, 507389967152, 5215613652224860),
  (151, 283369443311, 95559974160860), (151, 40953650210, 2651450133245020),
  (147, 232191248197, 3865405484155699), (154, 326437373895, 3851994579197200),
  (185, 98966099528, 2953047808653960), (150, 369230644689, 6569755772473979),
  (132, 271837382155, 7773401845962799), (140, 205736044462, 628307584999140),
  (122, 331361750281, 6238909182935939), (123, 207840148125, 2566841849769900),
  (118, 51913709271, 5153590899683439), (121, 215433834534, 5217968761850640)]

/-- `vsop87d_dict.py` 5800-5899. -/
def mercuryR1_1 : List (ℕ × ℕ × ℕ) := [
  (151, 266028539824, 2565419140369739), (113, 233243126122, 7879340038981718),
  (124, 313058661995, 5110931080595839), (150, 260376479044, 63989728631400),
  (123, 265137961558, 5112353789995999), (106, 131393069594, 4762385278608960),
  (112, 500798069297, 9869028051714458), (107, 512738291017, 9979965906923798),
  (123, 613795219131, 106649547719000), (106, 142997322881, 5216869273614759),
  (104, 451477063494, 2523470675982219), (120, 406567300860, 4589273043315699),
  (92, 472811907093, 211876386037840), (112, 478983902693, 5313140602475700),
  (96, 503438502363, 3237097899156560), (91, 422099920434, 5005704242277000),
  (91, 435481864546, 12933013715577759), (106, 14583281261, 1243204265039780),
  (84, 32848825294, 105226838318840), (84, 581442139422, 12938013377768178),
  (93, 34539006564, 7730810968311399), (78, 117633266287, 7667463652943878),
  (107, 101316358023, 5218291983014920), (82, 611445014523, 7932309135491178),
  (85, 250332044483, 723867559160000), (72, 156170832500, 4995704917896160),
  (76, 162577226881, 1587461759536320), (91, 575408440781, 2449171669928959),
  (92, 397747935513, 5219547604404819), (68, 44378826429, 9178546086631398),
  (78, 63585741399, 5217192494779040), (64, 257311321703, 9413832702008578),
  (65, 212942233842, 711354700080), (62, 370751240431, 13610084775702319),
  (68, 118946361248, 5439456338733519), (79, 335596277474, 5238910537858640),
  (64, 509677055426, 5196250718771040), (60, 625938912295, 2450594379329119),
  (61, 73867692725, 8281566292178139), (63, 129883580487, 221875710418680),
  (70, 528692696943, 4540509568190280), (57, 192365363632, 2076042703319140),
  (54, 89448628916, 7198063357473118), (51, 471710385051, 10546099111839019),
  (54, 622009952451, 4493713069154840), (52, 343365769233, 2555109862947879),
  (52, 577930503293, 6694104532641819), (48, 51937745535, 31305483769889036),
  (52, 571476972233, 10382192160120218), (47, 382203240163, 5376487917843220),
  (50, 576150579489, 2593833994443960), (47, 552705163618, 7783711123384659),
  (43, 584994474092, 6349847038145279), (52, 263638299982, 1809337469954999),
  (42, 539178421925, 6474195798313119), (41, 187113963554, 12588756221081219),
  (45, 404603530632, 5561838122811380), (39, 350934954924, 5260240447402440),
  (48, 72400634326, 3396799229491319), (51, 602427997984, 1365586049117640),
  (38, 9359107033, 8847699497093359), (38, 184297739511, 7824403966382280),
  (41, 574927951755, 2672780042788820), (45, 573633413733, 4418127784112419),
  (35, 81793649503, 2343944831610119), (38, 517914668407, 2375470674870219),
  (36, 481782090538, 5111642435295920), (41, 291943000674, 2624168195205900),
  (32, 191760062435, 5845888213313979), (33, 127507180487, 13154889425996438),
  (32, 501820692941, 4684833017476560), (30, 395444605179, 2655586813192860),
  (31, 117911028239, 5941448187474840), (30, 55604674983, 344257494496540),
  (34, 355745328485, 43371173787680), (33, 536229697065, 10488130353139139),
  (30, 124209931344, 2620234243025941), (33, 355673853222, 2544089230825939),
  (29, 298847901150, 2715439861876420), (35, 323888704617, 2545511940226100),
  (33, 177322555881, 12477818365871879), (28, 435951220773, 8048246652890938),
  (30, 514555074991, 5175632163927320), (29, 3524298861, 7921930916633119),
  (27, 259555966553, 15546803691925599), (27, 105480537311, 2842109953444620),
  (30, 572087736840, 5174209454527159), (29, 520529460359, 7826759076008058),
  (26, 111551342052, 15541804029735178), (30, 610884155937, 2601163707029860),
  (27, 338666053174, 10339601282468818), (25, 348592449926, 11787336400788819),
  (25, 169043243445, 2597346385288896), (26, 619577940400, 7719721394753258),
  (24, 147972864008, 2820666700195260), (23, 386767325148, 1606606586147480),
  (27, 406858086478, 7827082297172339), (22, 403528313026, 41948464387520),
  (23, 338426107540, 5894651688439399), (22, 133669336918, 5132260990139639)]

/-- `vsop87d_dict.py` 5900-5999. -/
def mercuryR1_2 : List (ℕ × ℕ × ℕ) := [
  (23, 223954141042, 10392501437542078), (24, 365673385174, 2661048055966799),
  (21, 449565014938, 7825659587772179), (21, 369266624882, 7762381213840858),
  (28, 571652736884, 7721144104153418), (21, 397119771059, 9806853671630539),
  (21, 561140929496, 12022623016165999), (25, 173460075205, 85319638175200),
  (24, 289897553229, 10541099449648599), (20, 615988447425, 21329909543800),
  (21, 42126764910, 14956319713460), (20, 441588880947, 2941603879785439),
  (24, 243220296378, 5057961984086379), (20, 47739908961, 16218875089859738),
  (21, 18110422167, 3519181013569180), (19, 238756251160, 2603790651966999),
  (20, 61997291259, 8503442002596818), (18, 460331561584, 7604495232053580),
  (18, 306180224259, 5059384693486539), (22, 45787269756, 159618644228460),
  (19, 176795970776, 7805041032928458), (19, 358333941723, 2714017152476259),
  (21, 15585183693, 7847700852016058), (18, 181330190957, 2556532572348040),
  (21, 345385724015, 10276253967101299), (22, 462891777236, 1940667828817460),
  (19, 528998871939, 2662470765366959), (16, 437908924360, 2513161398560359),
  (19, 269598918032, 10530721230790539), (18, 413274028026, 532747610838280),
  (18, 110819559505, 7614494556434419), (18, 204678515653, 7149299882347698),
  (15, 52406345582, 4215396900304900), (18, 71897799959, 7828337918562238),
  (20, 387105632280, 5174920809227239), (14, 6732488000, 2598481036735560),
  (19, 251337817026, 12990982474277639), (18, 379705759661, 10890356606335558),
  (14, 230467577173, 1820781398823521), (14, 491192145857, 15197546535238638),
  (14, 425365079026, 15763679740153858), (14, 382494343251, 788008915333899),
  (14, 47442483304, 2613789976347840), (15, 141820144369, 4056525432477420),
  (16, 192985195149, 4984260989027639), (16, 297241905198, 7102503383312259),
  (13, 7086712207, 7626607127560), (13, 219019855275, 9082986112470538),
  (14, 168395491426, 668122485339960), (12, 216242752229, 2942851556827400),
  (13, 55373605944, 7985278232000639), (12, 210236188465, 2460903656750980),
  (12, 349372354820, 6460784893354619), (13, 316312334997, 2588171759313700),
  (12, 32301447482, 7869030761559859), (16, 367591976897, 7825982808936459),
  (12, 81060544329, 8170628436968799), (15, 257802360273, 9302894846799239),
  (13, 355704873434, 33914274084046457), (12, 314169564714, 11456489811250778),
  (11, 496251639039, 8454678527471398), (11, 293160493628, 53680451209540),
  (11, 4474275203, 1980482729158280), (11, 239391294657, 1002183728009940),
  (11, 322530161123, 9069575207512038), (12, 71785378975, 2629408869001139),
  (11, 351130712506, 799452844202420), (11, 178813511249, 6915980243060499),
  (10, 189377082198, 2492542843716640), (12, 606775243662, 5232958509363319),
  (12, 11656433296, 5154302254383520), (12, 1462307671, 158195934828300),
  (10, 360476399042, 4952735145767539), (9, 535498571113, 264845482547300),
  (10, 254352513591, 5281570356946240), (9, 525498849885, 13001291751699499),
  (10, 563770719377, 18155594006083018), (11, 165385601347, 2650738778544939),
  (11, 493008131424, 10433194280539699), (10, 35445064092, 2652161487945100),
  (10, 279303258728, 3974376363275060), (9, 71144667758, 2576439772491679),
  (8, 422951187793, 18150594343892598), (8, 17514303190, 12948391596626239),
  (10, 116786157884, 2593412433108940), (10, 250335300453, 10329934418310839),
  (9, 318692590406, 3962932434406539), (10, 398242351264, 52257741809380),
  (11, 23158217376, 5163900177105299), (9, 30008658313, 2799910262479140),
  (11, 484801040284, 15086608680029298), (11, 594731028211, 3881335657634920),
  (8, 466199260294, 2609453170047421), (8, 71995165086, 5264377127350280),
  (8, 331825277790, 2439573747207180), (8, 252932369592, 2619099591579279),
  (8, 511541081184, 2561993815121980), (8, 118625312267, 2586749049913539),
  (8, 31593558687, 5152879544983359), (10, 212019897039, 13096920667296558)]

/-- `vsop87d_dict.py` 6000-6099. -/
def mercuryR1_3 : List (ℕ × ℕ × ℕ) := [
  (8, 24131547257, 14396126714946238), (7, 590865595918, 2397625282819660),
  (8, 488221803127, 2275976748529401), (7, 317202081415, 63278373931320),
  (8, 240875907837, 14631413330323418), (7, 603640433343, 5324230176033840),
  (7, 86406939215, 10435872611329758), (7, 345761762182, 2623746633870879),
  (9, 330628597530, 1272545343477500), (7, 74174993099, 12415643985787958),
  (8, 562600154280, 13139511544947959), (7, 252679818243, 7782999768684579),
  (8, 193255904016, 7784422478084739), (7, 369439677930, 8550238501632259),
  (7, 514299105203, 3547274414964940), (8, 152116219771, 2608127458267419),
  (8, 350246944455, 2586355834587229), (8, 517598738878, 2396202573419499),
  (9, 201720755803, 10435549390165479), (7, 57777174711, 8614379857806159),
  (7, 203534300720, 10090903762133139), (6, 330402834266, 10456491166173479),
  (6, 526635186541, 5069693970908399), (6, 360993601694, 2768408958385880),
  (8, 597157930225, 13149889763806018), (6, 443204136420, 5429457014352679),
  (6, 416183734880, 5450900267602040), (7, 435729742194, 5229024557183361),
  (7, 488364528875, 2694109952332620), (7, 384735933689, 3428217847478280),
  (6, 71889591582, 8958637352302698), (6, 477410201490, 10413831347085879),
  (6, 581016662275, 7026918098269838), (7, 359164938122, 18827665404017158),
  (6, 142397911026, 10213285546210999), (6, 515043168056, 9758090196505119),
  (8, 267404385604, 64701083331480), (5, 458227258685, 2597769682035479),
  (7, 618437842544, 12885044281258718), (5, 5338946228, 1354142120249119),
  (6, 555589010148, 15599772788435058), (5, 554731935938, 9635708412427259),
  (6, 36201698821, 2630831578401300), (5, 305584811656, 10328511708910679),
  (5, 480319811501, 5101333157874059), (6, 304691542636, 1336244970679920),
  (5, 559905054438, 7666752298243798), (5, 315313951574, 2616416921284980),
  (6, 115194666645, 2731172098235281), (5, 616463589751, 7668175007643958),
  (5, 277667883666, 22434479570190), (5, 427775147717, 1447735118320000),
  (5, 550743820134, 5212580966124419), (6, 68838699976, 2672068688088739),
  (5, 444878671847, 2522759321282139), (5, 488707969684, 5206136699446317),
  (5, 366186576821, 2524182030682300), (5, 176383923429, 17806336849396059),
  (5, 309083817171, 11567427666460119), (5, 173277038612, 95628915597060),
  (6, 59128664983, 13499146920492979), (5, 139435703220, 10434449901929598),
  (5, 566016557162, 4529065639321759), (5, 269362119172, 5006415596977079),
  (5, 411526724305, 20981260368468695), (6, 372633598860, 2616268474014150),
  (4, 101205356829, 18372470054311278), (5, 202484630372, 5271261079524379),
  (5, 447460304849, 7741051304297059), (5, 42971081835, 5269838370124219),
  (5, 156442459236, 1161055195837420), (4, 62582613574, 2274729071487440),
  (4, 151592730997, 6665315746634839), (5, 610277243405, 9711293697469679),
  (4, 100562353481, 5121951712717779), (4, 31906550066, 4883519385644859),
  (5, 498644771495, 5165322886505459), (5, 434429010560, 3213213172294960),
  (4, 292125579020, 7841748823520739), (4, 599601868842, 12133560871375339),
  (5, 313172791066, 6127971327726600), (5, 213824746365, 3960965458316560),
  (5, 568604378667, 11911685160956658), (4, 273202591375, 169216566950240),
  (4, 578251523942, 2673491397488900), (5, 77777359038, 10371171527998279),
  (5, 91021434517, 7158248457132299), (4, 303035393128, 5207271350892979),
  (4, 45156085724, 3141537924995700), (4, 393028686443, 10437128232719658),
  (4, 454919541216, 2619810946279360), (4, 266986199617, 2417670365835700),
  (4, 350110688244, 7482113447975718), (4, 575284691398, 2513872753260440),
  (4, 544367911308, 7293623331633979), (4, 160493978664, 17695398994186718),
  (4, 193554854399, 5004992887576919), (3, 390053130991, 10779418751126219),
  (3, 545429683058, 4429571712980940), (4, 60054840458, 10434773123093879)]

/-- `vsop87d_dict.py` 6100-6199. -/
def mercuryR1_4 : List (ℕ × ℕ × ℕ) := [
  (4, 88305624488, 6005589543648739), (4, 620681068925, 14065280125408198),
  (3, 144572212087, 13022621661243298), (4, 437750242770, 3276912799497380),
  (4, 175525459469, 11063468841628819), (3, 66980197410, 2622201219115920),
  (4, 220364417845, 18208563102592478), (3, 560615263810, 12938724732468258),
  (3, 96551693568, 20759384658050018), (4, 451472339809, 5216917772424839),
  (4, 86790293541, 2482233566294780), (3, 205745330337, 15610082065856918),
  (4, 27139822027, 21436455718174578), (3, 363958954831, 10223284870591838),
  (3, 333824382272, 17004917029103659), (3, 615959485239, 1254648193908300),
  (3, 54712514364, 191119948321720), (3, 553215106225, 32350541665740),
  (3, 578740917576, 2778006881107659), (4, 360062257669, 10594068546158058),
  (3, 523668974633, 1789362780836560), (3, 321536557308, 15557181910783658),
  (4, 378439308193, 6824187214462319), (4, 35026324282, 5322807466633679),
  (3, 139462627029, 11020632121940), (3, 298585442540, 10276965321801379),
  (3, 554914760118, 5210102468458109), (4, 531358771393, 11691776426627958),
  (4, 502170245911, 13044339704322898), (3, 339708771017, 10477821075717278),
  (3, 135333080979, 5218243484204840), (3, 353872943291, 2879151929624980),
  (3, 32151031474, 7561525459924959), (3, 281736551277, 7818744335344699),
  (3, 341370464721, 7761669859140778), (3, 272102083462, 15758680077963437),
  (4, 37990458940, 36523064398203876), (3, 529398694468, 18357092173262799),
  (3, 53039476474, 3507737084700659), (3, 96990585284, 2578034552060460),
  (4, 503799187214, 10393212792242158), (3, 57063116288, 5225058788171570),
  (3, 490694398172, 2704419229754480), (3, 564342324025, 7890360671103658),
  (3, 390829945174, 13044662925487179), (4, 539121442451, 5202202747266360),
  (3, 538325956945, 17240203644480839), (3, 362725946038, 16107937234650398),
  (3, 2159890719, 13065281480330898), (3, 526052772975, 5551641870984820),
  (3, 145533607551, 7710123472031478), (3, 245621582046, 20764384320240439),
  (3, 304264756378, 7492309699802278), (3, 327797530359, 2766986248985719),
  (4, 620795181771, 334061242669980), (3, 286818821459, 7933020490191258),
  (3, 542245453158, 3610974042167360), (3, 111238018002, 212587740737920),
  (3, 470325749301, 5259529092702359), (3, 414290639481, 2544648957983520),
  (3, 411874155864, 147886657406440), (3, 441727880469, 12822075860368418),
  (3, 584301330450, 6583166677432480), (3, 63458746349, 11223170171963578),
  (3, 520358469660, 15705710981453978), (3, 422446997246, 5339962412392700),
  (3, 608145059717, 2672489941359840), (3, 332246989691, 11112232316754239),
  (3, 111208497752, 7837814871340781), (3, 118205388535, 8038247328510099),
  (3, 398183946807, 2535202662804239), (3, 517537238750, 22568722128005016),
  (2, 319970010923, 6490125971792339), (3, 590368046078, 10450539137678158),
  (3, 215712281571, 2873635796704720), (2, 27988699718, 5232536948028299),
  (2, 109392137734, 2499819435038059), (3, 172654636472, 13041984594697120),
  (3, 624477199702, 5196962073471119), (3, 327154613105, 7763092568540938),
  (2, 180684819652, 12366880510662538), (2, 375304905922, 15024434299945379),
  (3, 204107819596, 7678484285065818), (3, 407589828594, 9767038771289718),
  (2, 343439078149, 5260951802102519), (2, 51530246334, 13388209065283638),
  (3, 475031746198, 20415127163553478), (2, 557618391474, 2429264469785319),
  (2, 222207407093, 7821371280281838), (2, 608590562625, 3945035284837340),
  (3, 442541702442, 5195539364070959), (3, 548323931966, 22041264243880),
  (3, 524728665819, 2670964694241340), (3, 452126286883, 2004367456019880),
  (2, 169429787369, 5302900266490040), (3, 98781948776, 8059690581759460),
  (2, 272291536990, 2386604650697719), (2, 223117481869, 2640208932144380),
  (3, 232561622864, 14520475475114079), (3, 355406019317, 5222580290505260)]

/-- `vsop87d_dict.py` 6200-6299. -/
def mercuryR1_5 : List (ℕ × ℕ × ℕ) := [
  (3, 82939608505, 8725317713015496), (3, 359850686303, 5239621892558720),
  (2, 25549281668, 2290975735100660), (2, 418932113589, 8159184508100279),
  (2, 558984236569, 10420204936916218), (2, 159325428260, 20618554843720),
  (2, 233240745085, 15748301859105378), (2, 378499822852, 7873167441507700),
  (3, 173139148586, 7774113200662879), (2, 198761216006, 10201841617342478),
  (2, 382447809654, 116247470440780), (2, 373613869026, 2460192302050899),
  (2, 487002033008, 5185941441349179), (2, 10623356446, 11159028815789679),
  (2, 443911582586, 7827033798362259), (2, 247821765975, 7811414622758799),
  (2, 583346201740, 18102624909573558), (2, 227341561267, 2595379409198919),
  (2, 273852323809, 12320084011627098), (2, 235063735347, 7810993061423779),
  (2, 45168929332, 211165031337760), (2, 446926491505, 2545090686955000),
  (2, 397278244291, 5280859002246159), (2, 58667782465, 12832075184749259),
  (2, 305065649587, 10275542612401219), (2, 113486054740, 5249219815280499),
  (2, 464642529286, 6037008161635699), (2, 368035435205, 5230991533273340),
  (2, 593910800197, 7816061665050399), (2, 126706232000, 5885703113654799),
  (2, 509637370849, 2682377965510599), (2, 388808196008, 1670306213349900),
  (2, 715741623, 13086611389874699), (2, 363338095338, 5185230086649099),
  (2, 567927933196, 10391790082841998), (2, 135964203538, 332813565628019),
  (2, 613531665590, 12937302023068098), (2, 374140255139, 5238199183158559),
  (2, 37783717379, 5377199272543299), (2, 70779949763, 2666759072857300),
  (2, 205372686428, 7038362027138360), (2, 606999395703, 2391914265929160),
  (2, 122493486348, 10349841618454478), (2, 400058813480, 12979961842155698),
  (2, 162085169147, 7814927013603736), (2, 181898501228, 2577151127191760),
  (2, 622451796390, 5225207235442399), (2, 20849484282, 2575404720080480),
  (2, 238916713246, 5122663067417859), (2, 434697979051, 2640429501123080),
  (2, 287638496001, 16785008294774959), (2, 401638193690, 5186824866217880),
  (2, 338565068956, 7772690491262719), (2, 573512271075, 18985399758261938),
  (2, 393444553575, 5091023880452200), (2, 362039658007, 688514988993081),
  (2, 176492939350, 9274106060792258), (2, 258190149030, 15493834595416138),
  (2, 537279792857, 5227889905736699), (2, 337039086197, 222185663459700),
  (2, 607737780217, 9432977528619739), (2, 516106622649, 2672931670331319),
  (2, 158212922198, 2601312154300690), (2, 577714525422, 2560026839032000),
  (2, 188481234244, 2717761193276780), (2, 568695965343, 5026460679993120),
  (2, 607601531670, 14176217980617538), (2, 433545610317, 819427533320860),
  (2, 110189365852, 122381784077861), (2, 168048369897, 2725037784598199),
  (2, 532044002117, 15119994274106238), (2, 133411828477, 7825708086582259),
  (2, 540842531044, 9524770557217918), (2, 455349965747, 3769845509994840),
  (2, 271889214634, 17351141499690177), (2, 195076646341, 14300566740785378),
  (2, 200346690661, 2607367604757259), (2, 178781584986, 4884767062686820),
  (2, 589586766332, 2631224793727610), (2, 199160321093, 2618986565983980),
  (2, 40598906242, 2577371696170459), (2, 336946627953, 2657553789282839),
  (2, 477845331095, 13672259155786238), (2, 111920130054, 5131549635439559),
  (2, 499966961564, 7880051393681798), (2, 250164995664, 1920275325164339),
  (2, 531192385841, 2338428698689860), (2, 293563622378, 13767819129947099),
  (2, 500974264854, 18218872380014337), (2, 282066370220, 11882896374949679),
  (2, 123355180586, 5228601260436779), (2, 27866926000, 2435678078864160),
  (2, 219163720361, 2639546076254379), (2, 241579406356, 14742351185532758),
  (2, 180661945912, 86030992875280), (1, 375687703582, 3408243158359840),
  (1, 585918351804, 16376609444104518), (1, 484627694564, 2717098337386779),
  (2, 312958128871, 19504736464141717), (2, 59313712363, 7478159856730)]

/-- `vsop87d_dict.py` 6300-6399. -/
def mercuryR1_6 : List (ℕ × ℕ × ℕ) := [
  (2, 460111717878, 2500482290928060), (1, 114751201091, 5550394193942859),
  (2, 455507467591, 13265827281205778), (1, 161844283111, 2407934560241519),
  (2, 199970840056, 1709843543614181), (2, 495650007002, 2444883362438620),
  (1, 620512620421, 233319639287200), (2, 127464400058, 14491686689107098),
  (2, 617677089224, 8736761641884019), (1, 129983905478, 15419422245657316),
  (2, 447232796046, 13043240216087017), (1, 448574397522, 10170315774082378),
  (2, 219277171383, 10309277421860), (1, 180796273878, 2550821555457540),
  (1, 548664013700, 2262565843570900), (1, 74294839995, 7889649316403578),
  (1, 351165251141, 2642175908234360), (1, 555668995710, 22002588923089796),
  (2, 408809950869, 2546615934073500), (2, 289128653047, 16674070439565618),
  (1, 392791860433, 18938603259226495), (1, 33128467520, 7657154375522019),
  (2, 198187462633, 8160432185142238), (1, 357210475329, 7878628684281638),
  (2, 113879447241, 6116527398858079), (1, 562721081889, 12244498726584678),
  (1, 51173156424, 11334108027172917), (1, 63238768568, 13045918546877075),
  (1, 62172861766, 13831960486120995), (2, 35135879351, 13202858860315479),
  (1, 168473271541, 2828699048486120), (2, 261859360479, 6156064729122359),
  (1, 342727473387, 13043563437251298), (2, 342836265136, 6571722748563958),
  (1, 298248327032, 84608283475120), (1, 535146960556, 126556747862640),
  (1, 488379701920, 20526065018762815), (1, 138681194099, 46796499035440),
  (1, 578967137689, 7615205911134499), (1, 164625172020, 7593051303185058),
  (1, 8732855602, 10371882882698359), (1, 74831854153, 5153439272140940),
  (1, 198744571247, 2641140855823160), (2, 58716824437, 5206559996192899),
  (1, 583388253183, 10427534649502118), (1, 207307900948, 7818892782615528),
  (1, 454379329814, 20304189308344138), (1, 367961974137, 11678365521669458),
  (1, 276419827660, 5281280255517260), (1, 576246998806, 137577379984580),
  (1, 349542841313, 7931597780791098), (1, 309408892186, 938484100807520),
  (2, 299230815235, 9180513062721379), (1, 231818985780, 5822003486452380),
  (1, 252061585089, 9191956991589899), (1, 20823485438, 5487942243782400),
  (1, 444457464944, 604422858137540), (1, 49331056411, 10481957755665119),
  (1, 598062907857, 10657036967048359), (1, 343578051874, 5184195034237900),
  (1, 150478057782, 13721022630911658), (1, 85871789181, 2598594062330859),
  (1, 464768227, 19613707343261078), (1, 431601888279, 5048364061364600),
  (1, 382192552665, 2592860140678200), (1, 213422641639, 6219764356324779),
  (1, 26342054765, 179525844372100), (1, 333069384141, 1966976089979),
  (1, 504672208460, 2624720487636640), (1, 369091550110, 7730742026875199),
  (1, 68629642431, 2610213023557580), (1, 561963025660, 10419783375581198),
  (1, 41026701894, 63699627202420), (1, 273690252229, 17006884005193636),
  (1, 297981003623, 7805752387628538), (1, 284174115238, 16895946149984296),
  (1, 619695864555, 24156183887541336), (1, 231427972623, 17917274704605396),
  (1, 82072277702, 5132972344839720), (1, 523954201903, 9902413645791399),
  (1, 186269361791, 4549458142974879), (1, 354450921353, 7833849102328988),
  (1, 460745432488, 15650774908854539), (1, 162346464256, 12810631931499895),
  (1, 72186155433, 2700583342755599), (1, 230344666604, 5038054783942739),
  (1, 118658609813, 898946770543239), (1, 625857682168, 5080003248330259),
  (1, 99962008973, 16329812945069079), (1, 286790873835, 3863438508065720),
  (1, 361827980669, 10626281204951399), (1, 61515728295, 7846989497315978),
  (1, 460636743786, 12699694076290558), (1, 448187053152, 23134855332920236),
  (1, 519829793680, 14287155835826878), (1, 568864830775, 317814579056760),
  (1, 489753750946, 5326551507434200), (1, 368051221186, 270361615467560),
  (1, 1737531330, 10381480805420138), (1, 179348974875, 18314501295611398)]

/-- `vsop87d_dict.py` 6400-6410. -/
def mercuryR1_7 : List (ℕ × ℕ × ℕ) := [
  (1, 616564988887, 19959931813847595), (1, 63301837081, 5143992976961659),
  (1, 229427904310, 148598012106520), (1, 144184009822, 11254588789950538),
  (1, 55411127132, 4279096527507320), (1, 507507945312, 5482426110862140),
  (1, 510858625008, 10767974822257696), (1, 550068575093, 2781902549450680),
  (1, 560579347269, 15308484390447979), (1, 492352598929, 5159611869614960),
  (1, 610538330268, 18165972224941078)]

/-- `vsop87d_dict.py` 5699-6411. -/
def mercuryR1 : List (ℕ × ℕ × ℕ) := List.flatten [
  mercuryR1_0, mercuryR1_1, mercuryR1_2, mercuryR1_3, mercuryR1_4, mercuryR1_5, mercuryR1_6, mercuryR1_7]

/-- `vsop87d_dict.py` 6413-6512. -/
def mercuryR2_0 : List (ℕ × ℕ × ℕ) := [
  (3117867, 308231840296, 2608790314157420), (1245396, 615183317423, 5217580628314840),
  (424822, 292583352960, 7826370942472259), (136130, 597983925842, 10435161256629678),
  (42175, 274936980629, 13043951570787099), (21759, 314159265359, 0),
  (12793, 580143162209, 15652741884944518), (3825, 256993599584, 18261532199101939),
  (1042, 314648120079, 2497852458948080), (1131, 562142196970, 20870322513259358),
  (483, 614307654520, 2719728169366760), (332, 238992575670, 23479112827416777),
  (320, 620674766565, 5106642773105500), (120, 56745598887, 2042657109242200),
  (113, 328048907943, 2449883024629040), (105, 436663468239, 2502852121138500),
  (97, 544128884026, 26087903141574195), (95, 170276410782, 105938193018920),
  (103, 298038190305, 7715433087262919), (74, 128630381800, 2661759410666880),
  (57, 296753362980, 110937855209340), (66, 568201233964, 2513230339996560),
  (53, 363699398162, 4651447423399620), (59, 310922979724, 2704350288318280),
  (53, 66673109494, 2153594964451540), (43, 469270605698, 2714728507176339),
  (42, 277372510028, 158907289528380), (36, 439741248058, 1476523904326980),
  (35, 180468389323, 1132266409830440), (43, 607426254990, 2830666024576099),
  (33, 534572581657, 2544800585526019), (31, 566489075070, 3063985663863300),
  (31, 236104565226, 3285861374281979), (31, 427403143366, 1698399614745660),
  (33, 322976052744, 2386914603738740), (31, 50041076120, 2264532819660879),
  (28, 221390393577, 28696693455731616), (33, 603682885493, 10324223401420339),
  (25, 423934105457, 5270549724824299), (23, 259711556958, 2396913928119580),
  (27, 210665521901, 2555821217647960), (21, 40892383580, 7260237737557039),
  (25, 569513499802, 566133204915220), (22, 486064608327, 2630120223701220),
  (24, 66522740624, 1931719254032860), (20, 561847810688, 455195349705880),
  (21, 230083904827, 5122020654153979), (18, 48839037250, 2606823338067440),
  (16, 607779022342, 5058673338786459), (16, 147218845921, 5323518821333759),
  (17, 294277588966, 5328518483524180), (15, 239097980793, 8392504147387479),
  (15, 385502950028, 2609178447693220), (14, 413753968603, 1256615169998280),
  (15, 551545801304, 677071060124560), (14, 567708505049, 5783713833230060),
  (14, 573775080815, 2767697603685800), (16, 569298300679, 2610757290247399),
  (14, 500837046884, 3741056723987860), (15, 572321978212, 2953047808653960),
  (12, 118827026407, 4085314218484400), (13, 234101240702, 2608402180621620),
  (12, 243920574243, 5672775978020720), (12, 112086684687, 4307189928903080),
  (12, 186975778356, 910390699411760), (12, 490236416950, 3630118868778519),
  (10, 233297570685, 42659819087600), (11, 280390774003, 12933013715577759),
  (10, 586382886189, 2620234243025941), (9, 3545904481, 2523470675982219),
  (11, 92571990717, 63989728631400), (10, 394827815051, 2566130495069820),
  (9, 145195768, 4995704917896160), (8, 542702003399, 11001294461544899),
  (8, 339306818321, 2597346385288896), (9, 483499870418, 3851994579197200),
  (8, 565148718768, 5313140602475700), (9, 573812314204, 5111642435295920),
  (8, 198050481337, 1352175144159140), (9, 95963913886, 7879340038981718),
  (8, 524647237181, 31305483769889036), (8, 352212788936, 5215613652224860),
  (7, 357060093012, 4873323133818299), (8, 347359025801, 9869028051714458),
  (8, 532679971128, 5164611531805379), (10, 507319693095, 2587460404613620),
  (8, 434411026261, 3174923519072640), (7, 344556423722, 2608078959457339),
  (7, 528088749622, 7730810968311399), (7, 346667099767, 211876386037840),
  (7, 196360039314, 1021328554621100), (7, 118631489114, 10329223063610759),
  (7, 428693259279, 95559974160860), (7, 88520158736, 3865405484155699),
  (9, 212100150030, 1884922754997420), (8, 275301666365, 2609501668857500),
  (7, 498530328971, 52969096509460), (7, 20928215626, 3332657873317420),
  (6, 454286088482, 7932309135491178), (6, 60060875587, 5217968761850640)]

/-- `vsop87d_dict.py` 6513-6612. -/
def mercuryR2_1 : List (ℕ × ℕ × ℕ) := [
  (6, 121940434381, 4196252073693740), (6, 174585091288, 6238909182935939),
  (6, 213481309441, 5153590899683439), (6, 492478078408, 2651450133245020),
  (7, 418249532118, 7720432749453338), (7, 168449319925, 5238910537858640),
  (5, 428220819106, 6805042387851159), (7, 169076988754, 1243204265039780),
  (6, 373803069606, 4540509568190280), (5, 261320374120, 7937308797681599),
  (5, 282458540907, 5439456338733519), (4, 627439443684, 5216869273614759),
  (5, 450767453332, 1365586049117640), (6, 241451327257, 5219547604404819),
  (5, 535396003655, 5217192494779040), (5, 548187638039, 8281566292178139),
  (4, 246695073802, 5561838122811380), (4, 240470389725, 5376487917843220),
  (4, 424591997877, 6694104532641819), (4, 326730161531, 723867559160000),
  (4, 424517841791, 12938013377768178), (4, 546706523938, 5005704242277000),
  (4, 217208918484, 13610084775702319), (4, 586573287261, 15541804029735178),
  (4, 415256069197, 3237097899156560), (4, 292358717546, 221875710418680),
  (4, 222141015932, 3396799229491319), (5, 574788858603, 5218291983014920),
  (4, 97295961632, 4418127784112419), (3, 578273085505, 2842109953444620),
  (3, 365975480266, 9979965906923798), (4, 398623592167, 2672780042788820),
  (3, 265056124435, 7667463652943878), (3, 491152657563, 4762385278608960),
  (4, 160135504353, 7773401845962799), (3, 26868606771, 7824403966382280),
  (3, 458298191655, 106649547719000), (3, 404696774318, 1809337469954999),
  (3, 104981780528, 9413832702008578), (3, 82425633309, 7371175592766379),
  (3, 512180734718, 105226838318840), (3, 158544193974, 5110931080595839),
  (3, 22337858409, 12477818365871879), (3, 308207297479, 7604495232053580),
  (3, 626000429251, 85319638175200), (3, 389747679105, 6474195798313119),
  (3, 186869273254, 5260240447402440), (4, 1480665337, 711354700080),
  (3, 195420622178, 10339601282468818), (3, 600022344367, 2941603879785439),
  (3, 105827389660, 5112353789995999), (3, 393336187090, 10488130353139139),
  (2, 480666683935, 8847699497093359), (2, 256919394798, 5196250718771040),
  (2, 519328838214, 9178546086631398), (3, 494448744333, 4493713069154840),
  (2, 39272598961, 2375470674870219), (3, 364926786888, 7826759076008058),
  (2, 193776267237, 11787336400788819), (2, 16310879863, 2820666700195260),
  (2, 274232958068, 5229024557183361), (2, 194114905421, 799452844202420),
  (2, 39437121176, 12588756221081219), (2, 103418813348, 15546803691925599),
  (2, 206866763231, 33914274084046457), (2, 129912216629, 10541099449648599),
  (2, 54124189090, 7482113447975718), (2, 212346357366, 6569755772473979),
  (2, 254143985834, 7827082297172339), (2, 487063627681, 3519181013569180),
  (2, 51631216786, 7149299882347698), (2, 73976887550, 1820781398823521),
  (2, 550150244414, 7828337918562238), (2, 478661791721, 7847700852016058),
  (2, 440683761496, 10382192160120218), (2, 307092516027, 7825659587772179),
  (2, 501301614244, 344257494496540), (2, 258799752737, 18150594343892598),
  (2, 495243490606, 12948391596626239), (2, 412821833516, 7721144104153418),
  (2, 405475453577, 12022623016165999), (2, 334041291655, 15197546535238638),
  (2, 327812728356, 5132260990139639), (2, 406092192484, 7783711123384659),
  (2, 522546741404, 16218875089859738), (2, 557497617017, 7198063357473118),
  (2, 186655156569, 2343944831610119), (2, 479020891265, 1587461759536320),
  (2, 243202419279, 4589273043315699), (1, 491443985635, 7869030761559859),
  (2, 255186486587, 3960965458316560), (2, 204705904795, 43371173787680),
  (1, 606582167254, 10213285546210999), (2, 36512406083, 628307584999140),
  (2, 596418661485, 7805041032928458), (1, 66730245858, 5845888213313979),
  (1, 246652537811, 9806853671630539), (2, 324884087108, 15086608680029298),
  (2, 33626385981, 5206136699446317), (1, 158214319162, 11456489811250778)]

/-- `vsop87d_dict.py` 6613-6712. -/
def mercuryR2_2 : List (ℕ × ℕ × ℕ) := [
  (1, 186505965946, 2714017152476259), (1, 470954784660, 7719721394753258),
  (1, 330080224324, 10433194280539699), (2, 215014442693, 7825982808936459),
  (1, 416909637294, 5174209454527159), (2, 61993180902, 13096920667296558),
  (1, 564166202504, 8170628436968799), (1, 128449131177, 2715439861876420),
  (1, 20716724934, 13154889425996438), (1, 501586042695, 10546099111839019),
  (1, 220142137730, 10437128232719658), (1, 71547903080, 10392501437542078),
  (1, 169298852699, 7102503383312259), (2, 101857337375, 9302894846799239),
  (2, 99564225222, 12990982474277639), (1, 304953117213, 2694109952332620),
  (1, 154774252742, 10456491166173479), (1, 129736654025, 2624168195205900),
  (2, 39879309478, 10435549390165479), (1, 173442408485, 6460784893354619),
  (1, 352887677711, 9758090196505119), (1, 355488474055, 8454678527471398),
  (1, 268991734615, 5941448187474840), (1, 223301107736, 10779418751126219),
  (1, 604185199127, 10434449901929598), (1, 233178230942, 10890356606335558),
  (1, 523291332097, 13499146920492979), (1, 542420842294, 7985278232000639),
  (1, 556485897392, 10435872611329758), (1, 203042058117, 7614494556434419),
  (1, 442403586918, 2502140766438420), (1, 407362401058, 18155594006083018),
  (1, 439544806298, 13149889763806018), (1, 337653548744, 2275976748529401),
  (1, 334598726101, 2486408530079559), (1, 81949463309, 5281570356946240),
  (1, 413026377404, 264845482547300), (1, 140701146170, 10328511708910679),
  (1, 272338212355, 41948464387520), (1, 286239729930, 6349847038145279),
  (1, 460118276053, 1980482729158280), (1, 376488909896, 5174920809227239),
  (1, 571167880995, 7837814871340781), (1, 311068504003, 5429457014352679),
  (1, 517191010522, 159618644228460), (1, 84666659977, 2603790651966999),
  (1, 127214241387, 3974376363275060), (1, 362572271343, 5175632163927320),
  (1, 99401491673, 5057961984086379), (1, 265940437112, 7921930916633119),
  (1, 278122688424, 15763679740153858), (1, 502865728622, 36523064398203876),
  (1, 426629771518, 2672489941359840), (1, 69459147389, 9082986112470538),
  (1, 374834736873, 4429571712980940), (1, 267181600104, 532747610838280),
  (1, 510769130141, 5894651688439399), (1, 55503171074, 6915980243060499),
  (1, 468391610322, 9069575207512038), (1, 517372763616, 14956319713460),
  (1, 526044215633, 2593412433108940), (1, 513679156205, 10434773123093879),
  (1, 91197645609, 10329934418310839), (1, 589466975855, 2731172098235281),
  (1, 91206378451, 7782999768684579), (1, 82686052448, 14631413330323418),
  (1, 501041490382, 2545090686955000), (1, 74891931364, 1002183728009940),
  (1, 375910629606, 2561993815121980), (1, 157855828108, 6127971327726600),
  (1, 522196769252, 7762381213840858), (1, 544280337360, 5264377127350280),
  (1, 338760463430, 4984260989027639), (1, 404176416141, 2556532572348040),
  (1, 199169557218, 10594068546158058), (1, 240126368211, 2655586813192860),
  (1, 328153684541, 7814927013603736), (1, 150606534242, 5059384693486539),
  (1, 499390846744, 14396126714946238), (1, 436279289081, 7026918098269838),
  (1, 56330446870, 2942851556827400), (1, 196827343473, 18827665404017158),
  (1, 614024093350, 332813565628019), (1, 438278455115, 5232958509363319),
  (1, 532677211586, 2613789976347840), (1, 549001686286, 788008915333899),
  (1, 208096369099, 2661048055966799), (1, 281808749734, 5450900267602040),
  (1, 385620334673, 2662470765366959), (1, 115157832957, 53680451209540),
  (1, 362974919098, 13001291751699499), (1, 35977888560, 10530721230790539),
  (1, 275970257539, 5550394193942859), (1, 395087871071, 11911685160956658),
  (1, 202746284465, 8503442002596818), (1, 1631363612, 2566841849769900),
  (1, 469497491223, 158195934828300), (1, 443589881789, 5324230176033840),
  (1, 2851648548, 21329909543800), (1, 242155941603, 2555109862947879)]

/-- `vsop87d_dict.py` 6713-6738. -/
def mercuryR2_3 : List (ℕ × ℕ × ℕ) := [
  (1, 451335885923, 1254648193908300), (1, 307012190290, 10413831347085879),
  (1, 425105785914, 6583166677432480), (1, 26591217377, 8958637352302698),
  (1, 325491459524, 4684833017476560), (1, 500501348827, 5163900177105299),
  (0, 550334834007, 12415643985787958), (0, 483101429854, 7626607127560),
  (0, 434030366776, 8048246652890938), (1, 355161443787, 11691776426627958),
  (0, 496302997387, 2652161487945100), (1, 12176395772, 668122485339960),
  (1, 6932929209, 4884767062686820), (1, 8695556653, 2650738778544939),
  (0, 150601747714, 63278373931320), (0, 368453733674, 2503563475838580),
  (0, 210077795936, 8614379857806159), (0, 261352703953, 5339962412392700),
  (0, 84481589887, 2588171759313700), (0, 395854005744, 9524770557217918),
  (1, 447600641528, 9711293697469679), (1, 40812953108, 7784422478084739),
  (0, 489912517892, 2598481036735560), (0, 516843610094, 5269838370124219),
  (0, 399449121788, 13139511544947959), (0, 565446547429, 8059690581759460)]

/-- `vsop87d_dict.py` 6412-6739. -/
def mercuryR2 : List (ℕ × ℕ × ℕ) := List.flatten [
  mercuryR2_0, mercuryR2_1, mercuryR2_2, mercuryR2_3]

/-- `vsop87d_dict.py` 6741-6840. -/
def mercuryR3_0 : List (ℕ × ℕ × ℕ) := [
  (32676, 167971635359, 2608790314157420), (24166, 463403168997, 5217580628314840),
  (12133, 138983781545, 7826370942472259), (5140, 443915386930, 10435161256629678),
  (1981, 120733880274, 13043951570787099), (1460, 314159265359, 0),
  (719, 425913631362, 15652741884944518), (250, 102794425848, 18261532199101939),
  (84, 408008618813, 20870322513259358), (28, 85051616237, 23479112827416777),
  (23, 160029451014, 2497852458948080), (11, 458074493182, 2719728169366760),
  (12, 465878660390, 5106642773105500), (9, 390622332667, 26087903141574195),
  (5, 143247327249, 7715433087262919), (4, 137106678794, 5328518483524180),
  (3, 67217979275, 28696693455731616), (2, 531135121818, 2042657109242200),
  (2, 154812921017, 110937855209340), (2, 448222146022, 10324223401420339),
  (2, 20057520755, 105938193018920), (2, 421865197056, 2513230339996560),
  (1, 211997334018, 4651447423399620), (1, 324267833975, 2714728507176339),
  (1, 133238537892, 158907289528380), (1, 514405498793, 7260237737557039),
  (1, 614595652541, 2661759410666880), (1, 390494988936, 455195349705880),
  (1, 285134614467, 1476523904326980), (1, 374339959279, 31305483769889036),
  (1, 282234410581, 5270549724824299), (1, 170132625273, 2386914603738740),
  (1, 144102444460, 2704350288318280), (1, 125358423340, 12933013715577759),
  (1, 32054002273, 910390699411760), (1, 90273607509, 5122020654153979),
  (1, 428935605425, 2767697603685800), (1, 441206223998, 7937308797681599),
  (1, 323518929162, 2630120223701220), (1, 225667255668, 2153594964451540),
  (1, 470414203873, 5058673338786459), (1, 188608259832, 9869028051714458),
  (1, 590420893056, 4085314218484400), (1, 446892853356, 5313140602475700),
  (1, 383684899837, 7730810968311399), (1, 131974603498, 5439456338733519),
  (1, 74728939443, 3285861374281979), (1, 627673970277, 5323518821333759),
  (1, 414814578610, 2953047808653960), (1, 87302135775, 8392504147387479),
  (1, 520339566427, 2606823338067440), (1, 288631079597, 7932309135491178),
  (1, 539853672849, 1931719254032860), (1, 573721596586, 7879340038981718),
  (0, 185241611022, 2597346385288896), (0, 431134434847, 2620234243025941),
  (0, 474305205780, 4995704917896160), (1, 387802524387, 8281566292178139),
  (0, 428937691652, 15541804029735178), (1, 335625397389, 3741056723987860),
  (0, 200313301846, 2264532819660879), (0, 249236829957, 2502852121138500),
  (0, 1947787727, 2555821217647960), (1, 413825019881, 344257494496540),
  (0, 281832388305, 2587460404613620), (0, 253416253042, 1256615169998280),
  (1, 446169102731, 2830666024576099), (1, 216986592809, 4540509568190280),
  (0, 227621739263, 2609178447693220), (0, 195034764539, 5215613652224860),
  (0, 403054078678, 3063985663863300), (0, 576722418743, 4307189928903080),
  (0, 412739704581, 2610757290247399), (0, 137713138665, 3174923519072640),
  (1, 354716896556, 5164611531805379), (0, 339161595850, 3630118868778519),
  (0, 434410863436, 5783713833230060), (0, 562082960690, 63989728631400),
  (0, 316268062826, 52969096509460), (0, 77186843357, 2608402180621620),
  (0, 378612072314, 11001294461544899), (0, 550453358586, 5111642435295920),
  (0, 4709131420, 5238910537858640), (0, 393991894858, 677071060124560),
  (0, 141961180167, 7667463652943878), (0, 261258742182, 6694104532641819),
  (0, 70544164813, 42659819087600), (0, 91883551986, 5561838122811380),
  (0, 530612883135, 5217968761850640), (0, 200604152518, 211876386037840),
  (0, 108640210817, 5672775978020720), (0, 392743267498, 5894651688439399),
  (0, 552202827702, 3865405484155699), (0, 157363600114, 2449883024629040),
  (0, 349522546958, 566133204915220), (0, 63375195581, 5153590899683439),
  (0, 134305878069, 10546099111839019), (0, 44820055565, 33914274084046457),
  (0, 139951362362, 221875710418680), (0, 63311095079, 1884922754997420)]

/-- `vsop87d_dict.py` 6841-6859. -/
def mercuryR3_1 : List (ℕ × ℕ × ℕ) := [
  (0, 82120127326, 5219547604404819), (0, 278211363987, 4762385278608960),
  (0, 94752126944, 5376487917843220), (0, 375988526858, 5217192494779040),
  (0, 44351435910, 13610084775702319), (0, 144824925227, 7604495232053580),
  (0, 483985082201, 7824403966382280), (0, 4522486479, 6238909182935939),
  (0, 628144869714, 21329909543800), (0, 517875557687, 95559974160860),
  (0, 462674052433, 5216869273614759), (0, 219907823066, 7720432749453338),
  (0, 340216597806, 2651450133245020), (0, 289630853457, 1365586049117640),
  (0, 392639394174, 5005704242277000), (0, 27991454535, 1132266409830440),
  (0, 563968341805, 10329223063610759), (0, 186829495425, 4873323133818299),
  (0, 577443179008, 10541099449648599)]

/-- `vsop87d_dict.py` 6740-6860. -/
def mercuryR3 : List (ℕ × ℕ × ℕ) := List.flatten [
  mercuryR3_0, mercuryR3_1]

/-- `vsop87d_dict.py` 6862-6879. -/
def mercuryR4_0 : List (ℕ × ℕ × ℕ) := [
  (394, 36735403840, 2608790314157420), (387, 318568771507, 5217580628314840),
  (270, 616983616444, 7826370942472259), (149, 291591904641, 10435161256629678),
  (71, 595867889641, 13043951570787099), (31, 272386700044, 15652741884944518),
  (17, 0, 0), (12, 577775334056, 18261532199101939),
  (5, 254506442647, 20870322513259358), (2, 559978443851, 23479112827416777),
  (1, 233785160871, 26087903141574195), (0, 537943916893, 28696693455731616),
  (0, 309643524101, 5106642773105500), (0, 9342858750, 2497852458948080),
  (0, 602837115675, 5328518483524180), (0, 613600004668, 7715433087262919),
  (0, 293310416266, 2719728169366760), (0, 289897922039, 10324223401420339)]

/-- `vsop87d_dict.py` 6861-6880. -/
def mercuryR4 : List (ℕ × ℕ × ℕ) := mercuryR4_0

/-- `vsop87d_dict.py` 6882-6891. -/
def mercuryR5_0 : List (ℕ × ℕ × ℕ) := [
  (6, 398900269603, 2608790314157420), (6, 155248278782, 5217580628314840),
  (5, 465461721116, 7826370942472259), (4, 140238366492, 10435161256629678),
  (2, 444231488663, 13043951570787099), (1, 314159265359, 0),
  (1, 121278177664, 15652741884944518), (1, 426149026340, 18261532199101939),
  (0, 99831133595, 20870322513259358), (0, 400267064210, 23479112827416777)]

/-- `vsop87d_dict.py` 6881-6892. -/
def mercuryR5 : List (ℕ × ℕ × ℕ) := mercuryR5_0

/-- `vsop87d_dict.py` 4481-6893 `_planets[("Mercury", "R")]`. -/
def mercuryR : List (List (ℕ × ℕ × ℕ)) :=
  [mercuryR0, mercuryR1, mercuryR2, mercuryR3, mercuryR4, mercuryR5]

end Verif.Data

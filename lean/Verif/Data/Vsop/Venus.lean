import Mathlib.Data.Nat.Notation

/-! Generated by tools/gen_vsop.py from vsop87d_dict.py; do not edit.
Each row is amplitude, phase and frequency in units of 1e-11. -/

namespace Verif.Data

/-- `vsop87d_dict.py` 6896-6995. -/
def venusL0_0 : List (ℕ × ℕ × ℕ) := [
  (317614666774, 0, 0), (1353968419, 559313319619, 1021328554621100),
  (89891645, 530650048468, 2042657109242200), (5477201, 441630652531, 786041939243920),
  (3455732, 269964470778, 1179062908865880), (2372061, 299377539568, 393020969621960),
  (1317108, 518668219093, 2629831979980), (1664069, 425018935030, 157734354244780),
  (1438322, 415745043958, 968359458111640), (1200521, 615357115319, 3063985663863300),
  (761380, 195014702120, 52969096509460), (707676, 106466707214, 77552261132400),
  (584836, 399839884762, 19144826611160), (769314, 81629615911, 943776293488700),
  (499915, 412340210074, 1572083878487840), (326221, 459056473097, 1040473381232260),
  (429498, 358642859752, 1936718916223280), (326967, 567736583705, 550755323866740),
  (231937, 316251057072, 915390361602180), (179695, 465337915578, 110937855209340),
  (128263, 422604493736, 2077539549240), (155464, 557043888948, 1965104848109800),
  (127907, 96209822685, 566133204915220), (105547, 153721191253, 80182093112380),
  (85722, 35589249966, 315468708489560), (99121, 83288185132, 21329909543800),
  (98804, 539389655503, 1336797263110660), (82094, 321596990826, 1883749819713819),
  (88031, 388868860307, 999998645077300), (71577, 11145739345, 1101510647733480),
  (56122, 424039855475, 711354700080), (70239, 67458813282, 2358125817731760),
  (50796, 24531603049, 1132266409830440), (46111, 531576465717, 1807370493865020),
  (44574, 606282201966, 4085314218484400), (42594, 532873337210, 235286615377180),
  (42635, 179955421680, 708489678111520), (41177, 36240972161, 38289653222320),
  (35749, 270448479296, 1020617199921020), (33893, 202347322198, 628307584999140),
  (29138, 359230925768, 2200391463486980), (28479, 222375414002, 105938193018920),
  (29850, 402176977477, 1023958386601080), (33252, 210025596509, 2751146787353720),
  (30172, 494191919890, 1374534623902240), (29252, 351392387787, 28385931886520),
  (24424, 270177493852, 862421265092720), (20274, 379493637509, 1414349524243060),
  (24322, 427814493315, 552292430740), (26260, 54067587552, 1729818232732620),
  (20492, 58547075036, 3802767263580), (18988, 413811500642, 455195349705880),
  (23739, 482870797552, 687267311951120), (15885, 150067222283, 863594200376320),
  (19069, 612025580313, 2905078374334920), (18269, 304740408477, 1999997290154599),
  (13656, 441336292334, 353206069281140), (17094, 352161526430, 3144167756975680),
  (10955, 284562790076, 1830780723204360), (11048, 258361219075, 978668735533500),
  (9904, 108737710389, 706412138562280), (10576, 85419784436, 1059618207843420),
  (9231, 552471655579, 1256615169998280), (11599, 581007422699, 1989688012732740),
  (11807, 191250672543, 2122839202354580), (10105, 234270786693, 1074297651130560),
  (8154, 192331359797, 1525247118500), (8893, 197291388515, 1018698722641120),
  (9352, 494508904764, 3537188726597640), (6821, 439733188968, 866224032356300),
  (6688, 155310437864, 1494531617355440), (6413, 217677652923, 1098880815753500),
  (5802, 193462125906, 334061242669980), (5950, 296578175391, 473203062734340),
  (5275, 501877102496, 2828699048486120), (7047, 100111452053, 63278373931320),
  (5048, 427886209626, 2958047470844380), (6305, 35506331180, 10309277421860),
  (5959, 504792949464, 24583164622940), (4651, 85218058876, 677071060124560),
  (5580, 48723384809, 52257741809380), (5327, 303115417024, 1002183728009940),
  (5010, 577375166500, 2852109277825460), (4608, 193302108394, 470573230754360),
  (5526, 336797048901, 2515860171976540), (3863, 489351531412, 2593412433108940),
  (5303, 8161426841, 3930209696219600), (4254, 536046113295, 2153594964451540),
  (3763, 105304597315, 1966976089979), (4407, 402575374517, 7478159856730),
  (4145, 114356412295, 967648103411560), (4318, 438289970585, 31639186965660),
  (3642, 611733529325, 312838876509580), (3238, 539551036769, 41948464387520),
  (3909, 405263635330, 969070812811720), (3152, 72553551731, 1649636139620240),
  (3496, 72414615705, 372350895892300), (3755, 380208713127, 1978667380610799),
  (2891, 333782737770, 3221720018108080), (3016, 157249112496, 1727740693183380)]

/-- `vsop87d_dict.py` 6996-7095. -/
def venusL0_1 : List (ℕ × ℕ × ℕ) := [
  (3825, 19612312903, 42659819087600), (3798, 45524571743, 1031637832042960),
  (2570, 120813474107, 1393679450513400), (2796, 365128969074, 20618554843720),
  (2466, 361988676373, 155104522264800), (3108, 150325806664, 4323230665841560),
  (2976, 479415001304, 2908881141598500), (2217, 359623681714, 2435678078864160),
  (2227, 496059221940, 53680451209540), (2397, 345249688427, 1937430270923360),
  (2462, 53295178258, 1936007561523199), (2205, 270399309963, 1259245001978260),
  (2230, 301413465913, 1887552586977400), (1858, 406129152783, 237916447357160),
  (1807, 315086214479, 957338825989700), (2238, 552216925076, 1013850394764370),
  (2195, 232046770554, 809452168583260), (2101, 290421302975, 996745389998160),
  (1916, 456513949099, 221875710418680), (1467, 242640162465, 1023406094170340),
  (1726, 559790693845, 2045286941222180), (1455, 244757248737, 158907289528380),
  (1991, 404623390359, 3174923519072640), (1406, 271736996917, 1698399614745660),
  (1658, 11252373292, 15377881048480), (1851, 292898027939, 4716251635463520),
  (1492, 107513892753, 910390699411760), (1247, 248433565896, 1777811626694899),
  (1549, 420553654300, 344257494496540), (1243, 395452438599, 17067287061920),
  (1694, 620694480406, 3301902111220460), (1221, 477931820602, 3011016567353840),
  (1206, 30531303095, 2986433402730900), (1238, 505581820608, 2021327199698400),
  (1152, 326229919481, 1172935283600), (1179, 169491074791, 2040027277262220),
  (1165, 288995128147, 57434479833480), (1306, 14519588607, 914679006902100),
  (1113, 152598846804, 1042658464164900), (1104, 258791423813, 1884922754997420),
  (1045, 57539216420, 1587461759536320), (1360, 241976595457, 3873437832446560),
  (981, 437930727798, 11020632121940), (1095, 49492867814, 5106642773105500),
  (1146, 454241454215, 1022039909321180), (981, 165915064733, 1010307922499160),
  (1270, 469374306132, 905081084180320), (1065, 441645258887, 2280573556599360),
  (854, 234437926957, 668122485339960), (1104, 49781459714, 148447270830),
  (1075, 109857593161, 37737360791580), (1114, 435024775806, 5109272605085480),
  (829, 541196274578, 2799140181316000), (900, 274195379617, 4196252073693740),
  (1010, 296092073452, 13562532501000), (768, 398260860494, 1884461174413899),
  (1018, 136891050752, 3694923080842420), (726, 167728773965, 2120209370374600),
  (727, 89048212541, 46796499035440), (869, 293767679827, 1019251015071860),
  (696, 535698039414, 1006372234907640), (920, 417128923588, 1873440542291960),
  (691, 150594097883, 2719728169366760), (835, 48050621092, 2061801935853360),
  (711, 19750098222, 1883038465013739), (811, 16685071959, 1243204265039780),
  (756, 379022623226, 916101716302260), (622, 533659507738, 941146461508720),
  (862, 572705356405, 1017515251057320), (853, 10404188453, 210703450754240),
  (742, 396365892051, 81355028395980), (705, 71229660616, 22041264243880),
  (584, 171900692700, 3602786667740), (612, 36418385449, 94917560896980),
  (587, 158648949290, 662855890001), (581, 549288908804, 630937416979120),
  (581, 480353237853, 2415008005134500), (516, 607328802561, 3813303563780),
  (627, 547281424954, 958050180689780), (601, 140500080774, 116247470440780),
  (620, 400681042667, 999287290377220), (611, 362010998629, 725556965173440),
  (697, 222359630727, 34892442044800), (693, 577432072851, 5502293574707440),
  (494, 29761886866, 705859846131540), (563, 24172140474, 3741056723987860),
  (487, 586917216517, 1013701947493540), (493, 204534833854, 73587651353180),
  (636, 279707392326, 4087944050464380), (519, 413945657630, 1652265971600220),
  (535, 460569597820, 1957337471066999), (555, 588120421263, 2673594526221320),
  (440, 561490649795, 2395863178523340), (541, 62494922735, 1000709999777380),
  (427, 402335620501, 1422709400160), (434, 29028429049, 926410993724120),
  (451, 166320363626, 2608790314157420), (422, 338413582674, 1078763034454580),
  (569, 514001758731, 2749069247804480), (421, 423407313457, 3979376025465480)]

/-- `vsop87d_dict.py` 7096-7195. -/
def venusL0_2 : List (ℕ × ℕ × ℕ) := [
  (458, 528786368820, 4975702547180), (418, 569097790790, 1476523904326980),
  (475, 97544690438, 105226838318840), (387, 441665162999, 2185082932640),
  (523, 290512426870, 2023512282631040), (506, 526999314618, 2999995935231900),
  (438, 249457071132, 2095626205751660), (530, 71368442157, 3379454372352860),
  (382, 192119365480, 393215326310), (365, 381715328784, 2041945754542119),
  (426, 206384083608, 3820468735937100), (496, 44077356179, 983591193829520),
  (410, 493346326003, 1926409638801420), (380, 379573358631, 852111987670860),
  (334, 551158557799, 1025131321884680), (412, 256129670728, 7767377042800),
  (418, 237865963521, 3253255079140), (325, 603020523465, 1894770451835760),
  (400, 91999360201, 22747613278900), (437, 91420135162, 5895314544329400),
  (360, 82477639126, 2277520145080), (413, 422381905655, 4480965020086340),
  (375, 315657291896, 1999285935454519), (371, 605370874275, 2000708644854680),
  (361, 544371227904, 1947028193645139), (386, 528120540405, 4762385278608960),
  (389, 73216672240, 1905079729257620), (320, 284811591194, 1019905845220940),
  (386, 388754165531, 197549254585600), (276, 433979180814, 2080946762464520),
  (276, 50647429773, 983038901398780), (309, 379299100668, 1820471445782499),
  (377, 73768791281, 1150676976979360), (322, 96138442100, 3066615495843280),
  (363, 130472406690, 936720271145980), (366, 279972786028, 1127266747640020),
  (271, 466141338193, 84608283475120), (259, 42031175750, 3926406928956020),
  (285, 40546033634, 3091412563500), (247, 480676426942, 3614740987730040),
  (264, 271608177583, 1104570026390), (233, 276423842887, 18792514776260),
  (248, 160765612338, 1049714486507620), (271, 82348919630, 1979378735310880),
  (225, 380080957016, 863132619792800), (263, 192311689852, 3772475341974820),
  (214, 501663795092, 63989728631400), (289, 12342601246, 2027700789528740),
  (210, 12771800254, 2982143814880), (227, 418036609801, 1746885519794540),
  (274, 234929343000, 6288335513951360), (260, 565254501655, 4873985989708300),
  (271, 495325404028, 421406901508480), (219, 208775228014, 19497138446060),
  (191, 249267248333, 56882187402740), (250, 152909737354, 603724420376200),
  (231, 523674429498, 49166329245880), (182, 498046042571, 1841801355326299),
  (188, 282273639603, 138589527633620), (204, 409939796199, 1491901785375460),
  (176, 382400982460, 936008916445900), (198, 276491873243, 1021721769947410),
  (168, 519268384202, 106649547719000), (199, 195301487982, 756483072073800),
  (171, 259623459612, 2040579569692960), (172, 529332132623, 1176433076885900),
  (165, 288557908025, 1020776262190360), (164, 325435371801, 391495722503460),
  (200, 382443218090, 1831492077904440), (169, 178341902878, 3102275317085620),
  (179, 90840065587, 788008915333899), (163, 279665037814, 4155079098480),
  (154, 390796293476, 3021325844775700), (153, 7463240782, 2852820632525540),
  (194, 595838706838, 861709910392640), (171, 458206324409, 2044734648791440),
  (150, 211647586229, 1724842530185440), (149, 217259986320, 992942622734580),
  (191, 82310353823, 5267006959330260), (148, 294315921485, 4165496311596780),
  (149, 449798039726, 3083130490474460), (184, 246923348701, 3459636465465240),
  (146, 269452930300, 4307189928903080), (159, 211137713570, 1931719254032860),
  (154, 276536164654, 2851397923125379), (140, 494595038686, 925699639024040),
  (141, 257248458154, 1355389797291080), (137, 166482327575, 263672547263700),
  (140, 523039605990, 2264532819660879), (132, 535690599728, 1962475016129820),
  (140, 290637712614, 4894766387067660), (129, 395303623681, 3285861374281979),
  (156, 601143316387, 2905789729034999), (134, 575241675118, 6805042387851159),
  (154, 366827363753, 27674577186440), (176, 377298381177, 6681356483573320),
  (126, 500217740223, 2746171084806540), (135, 134807013920, 5328518483524180),
  (150, 25029475344, 29097286586600), (152, 313035670092, 2904367019634839)]

/-- `vsop87d_dict.py` 7196-7262. -/
def venusL0_3 : List (ℕ × ℕ × ℕ) := [
  (169, 504348109430, 7329712585900), (166, 539219948035, 4123603871706720),
  (163, 559796070987, 757656007357400), (126, 77391784606, 4999662190420),
  (163, 44241846674, 2035030502114640), (136, 309066368912, 41892439890060),
  (154, 47086190960, 2841800000403600), (120, 88536981986, 2957336116144300),
  (132, 148009769040, 1708595866572220), (126, 139497760964, 96697087743560),
  (143, 384026797958, 1412824277124560), (147, 211627427804, 3436336559755600),
  (106, 204696932293, 3767499639427640), (106, 143873202489, 2768214074415640),
  (149, 9286508794, 814427871130440), (103, 1992041470, 1830069368504279),
  (121, 357602835443, 4514121963660), (125, 11630302078, 14956319713460),
  (102, 417947097730, 233319639287200), (99, 151324741657, 1041947109464820),
  (133, 302183293676, 7625132777062019), (136, 417517197268, 364635037735440),
  (123, 44045588682, 51546387109300), (113, 569261397718, 1011019277199240),
  (98, 623797900467, 20225339517410), (99, 375627530197, 5972866805461800),
  (101, 462832557536, 6523622129328540), (111, 125947267588, 1084606928552420),
  (110, 587455577536, 3850027603107220), (128, 601024562160, 9039482301305079),
  (91, 177665981007, 153931586981200), (92, 99804571578, 9597922721780),
  (120, 393060866244, 3852657435087200), (117, 224143299549, 5660027928952220),
  (118, 609121325940, 2978666025688100), (98, 460938156207, 1178710597030980),
  (97, 392727733144, 1179415220700780), (93, 523395435043, 1416979356223040),
  (96, 527525709038, 873441897214660), (94, 18166654805, 6758908744705719),
  (110, 496279287076, 4841797290558199), (86, 39533409505, 395650801601940),
  (85, 569642646462, 3770397802425580), (114, 519676285428, 7074377453195279),
  (81, 551324815184, 41237109687440), (89, 213409771828, 4476809940987860),
  (84, 602475904578, 1063277019008620), (85, 460912614442, 4558517281218740),
  (78, 447358603432, 11443928868521), (97, 402223363535, 1021880847051840),
  (81, 103870237004, 979380090233580), (92, 80301220092, 2438307910844140),
  (87, 215124790938, 2831328880466100), (75, 517868679355, 6365887775083760),
  (78, 581927313665, 56771863773040), (75, 172618192481, 1958048825767080),
  (71, 10259261764, 9069575207512038), (77, 616012067704, 157382042409880),
  (76, 512884307551, 4951538250840700), (69, 29569499484, 1017525787357520),
  (61, 480385549281, 1988976658032659), (60, 456685040226, 3042655754319500),
  (62, 416222812699, 4243048572729180), (50, 617899839001, 2277943724619380),
  (48, 152546758016, 2063987018786000), (46, 441738494249, 3457006633485260),
  (37, 469675087759, 4400782926973960)]

/-- `vsop87d_dict.py` 6895-7263. -/
def venusL0 : List (ℕ × ℕ × ℕ) := List.flatten [
  venusL0_0, venusL0_1, venusL0_2, venusL0_3]

/-- `vsop87d_dict.py` 7265-7364. -/
def venusL1_0 : List (ℕ × ℕ × ℕ) := [
  (1021352943052898, 0, 0), (95707712, 246424448979, 1021328554621100),
  (14444977, 51624564679, 2042657109242200), (213374, 179547929368, 3063985663863300),
  (151669, 610635282369, 157734354244780), (173904, 265535879443, 2629831979980),
  (82233, 570234133730, 19144826611160), (69734, 268136034979, 943776293488700),
  (52408, 360013087656, 77552261132400), (38318, 103379038025, 52969096509460),
  (29633, 125056322354, 550755323866740), (25056, 610664792855, 1040473381232260),
  (17772, 619369798901, 110937855209340), (16510, 264330452640, 711354700080),
  (14230, 545138233941, 915390361602180), (12607, 124464400689, 4085314218484400),
  (11627, 497604495371, 21329909543800), (12563, 188122199199, 38289653222320),
  (8869, 95282732248, 1336797263110660), (7374, 439476760580, 1020617199921020),
  (6552, 228168808058, 235286615377180), (6255, 408056644034, 315468708489560),
  (6697, 505673427795, 80182093112380), (4084, 412103826030, 1883749819713819),
  (4882, 344515199115, 1101510647733480), (3549, 619934345402, 552292430740),
  (3448, 177405651704, 1132266409830440), (4290, 8154809210, 628307584999140),
  (3694, 248453945256, 566133204915220), (3555, 148036949420, 105938193018920),
  (3023, 224092938317, 1807370493865020), (3000, 39169917698, 1525247118500),
  (2563, 35147506973, 2200391463486980), (2774, 145683830639, 1023958386601080),
  (2951, 534618097429, 708489678111520), (2344, 236652432105, 1729818232732620),
  (2405, 236085282088, 1059618207843420), (1720, 472129626061, 1018698722641120),
  (2209, 207730338665, 863594200376320), (2122, 447091605309, 862421265092720),
  (1527, 67146857292, 1414349524243060), (1473, 259350470099, 706412138562280),
  (1311, 90408820221, 1256615169998280), (1474, 592236241437, 978668735533500),
  (1237, 259740787132, 455195349705880), (1219, 283617320088, 967648103411560),
  (1116, 383715584719, 2122839202354580), (1006, 426200749078, 42659819087600),
  (1150, 235531987378, 969070812811720), (1219, 227324315182, 52257741809380),
  (1150, 81088598778, 1074297651130560), (1101, 374248783564, 1830780723204360),
  (1031, 203889374176, 3802767263580), (971, 610590045414, 353206069281140),
  (844, 475124127613, 1098880815753500), (908, 106613723738, 1002183728009940),
  (824, 23090829723, 2828699048486120), (821, 260456032773, 1966976089979),
  (728, 10716917942, 470573230754360), (744, 333129778857, 53680451209540),
  (816, 127303930175, 1989688012732740), (929, 108024621325, 1179062908865880),
  (797, 223891816523, 372350895892300), (704, 595307260017, 2077539549240),
  (665, 21346689192, 786041939243920), (733, 222147883292, 1936007561523199),
  (702, 176206343944, 1937430270923360), (575, 238792087791, 677071060124560),
  (538, 152023264138, 2593412433108940), (690, 401873754171, 1965104848109800),
  (532, 441576130890, 57434479833480), (540, 215936134728, 1649636139620240),
  (576, 541170044566, 20618554843720), (482, 40815793538, 334061242669980),
  (501, 308578363577, 24583164622940), (488, 522311611589, 2515860171976540),
  (450, 21279844600, 1172935283600), (432, 132004964493, 10309277421860),
  (434, 591094755233, 1978667380610799), (564, 38776462529, 1936718916223280),
  (421, 271057839701, 1393679450513400), (549, 608792865644, 393020969621960),
  (478, 470234715828, 1494531617355440), (408, 480890663927, 3221720018108080),
  (404, 285003595942, 2986433402730900), (407, 294002049006, 1022039909321180),
  (359, 72354778897, 41948464387520), (449, 144520508753, 866224032356300),
  (353, 222195492336, 5106642773105500), (324, 140308439067, 2958047470844380),
  (443, 193864353398, 914679006902100), (314, 96837035284, 2061801935853360),
  (324, 510759068171, 2435678078864160), (324, 180146948625, 1883038465013739),
  (370, 616895004656, 221875710418680), (278, 220429108375, 1884461174413899),
  (286, 308459438435, 1727740693183380), (383, 13890934755, 473203062734340),
  (292, 43528982259, 2908881141598500), (273, 584415407168, 957338825989700)]

/-- `vsop87d_dict.py` 7365-7464. -/
def venusL1_1 : List (ℕ × ℕ × ℕ) := [
  (324, 214144542781, 999998645077300), (264, 520407029554, 22041264243880),
  (254, 34411959301, 2852109277825460), (300, 376014360906, 809452168583260),
  (301, 364457981649, 2040027277262220), (287, 184003536598, 158907289528380),
  (206, 97167234723, 1023406094170340), (212, 24173677600, 3602786667740),
  (216, 588618923030, 1887552586977400), (198, 189506914939, 2045286941222180),
  (258, 627611355094, 155104522264800), (197, 209222675324, 968359458111640),
  (217, 579472589364, 910390699411760), (188, 39123199129, 1957337471066999),
  (195, 623142464829, 3011016567353840), (187, 549670351645, 17067287061920),
  (178, 490042854659, 1078763034454580), (188, 162614804098, 916101716302260),
  (211, 271884568392, 1572083878487840), (177, 188170417337, 3301902111220460),
  (209, 266033422116, 344257494496540), (164, 492240093026, 1042658464164900),
  (186, 513678812068, 725556965173440), (177, 570206821967, 999287290377220),
  (214, 270027196648, 312838876509580), (208, 338876526854, 1777811626694899),
  (147, 425008782855, 1698399614745660), (148, 346404418130, 2120209370374600),
  (189, 143553862242, 237916447357160), (139, 299154379541, 11020632121940),
  (159, 523851679605, 1000709999777380), (136, 88942869764, 2280573556599360),
  (155, 590500835975, 1259245001978260), (151, 3422618975, 2799140181316000),
  (153, 401743770323, 3379454372352860), (121, 51392111799, 2153594964451540),
  (109, 225388616761, 2673594526221320), (109, 78612823474, 668122485339960),
  (122, 484805105466, 1999285935454519), (112, 331796669604, 3694923080842420),
  (106, 334507236765, 1010307922499160), (114, 436384000196, 2000708644854680),
  (98, 507711736751, 13562532501000), (120, 541870615047, 3772475341974820),
  (103, 262610244425, 2021327199698400), (85, 504808202087, 983038901398780),
  (103, 201549383816, 4558517281218740), (88, 262613816931, 2185082932640),
  (84, 350355880173, 63989728631400), (99, 61079620895, 4165496311596780),
  (88, 363836700262, 4951538250840700), (98, 242401801881, 2358125817731760),
  (81, 46468679835, 7767377042800), (92, 482530051729, 2904367019634839),
  (102, 427051236894, 1587461759536320), (90, 434075776744, 2905789729034999),
  (81, 1896422336, 2415008005134500), (93, 179250830018, 1243204265039780),
  (87, 525157021446, 1412824277124560), (89, 565756996753, 37737360791580),
  (97, 567942873241, 22747613278900), (76, 293363913259, 3820468735937100),
  (91, 260544242067, 105226838318840), (87, 382284200928, 2751146787353720),
  (73, 475280755154, 4087944050464380), (67, 354815262526, 3066615495843280),
  (67, 581350818057, 2080946762464520), (64, 424772678145, 15377881048480),
  (64, 299454749109, 2719728169366760), (70, 403868009742, 5660027928952220),
  (71, 433628806850, 3926406928956020), (69, 173648747605, 3741056723987860),
  (65, 108206062736, 6805042387851159), (62, 477698454650, 391495722503460),
  (61, 496121014691, 3459636465465240), (63, 504865067599, 5344559220462660),
  (58, 374010494151, 106649547719000), (57, 539355890141, 2041945754542119),
  (57, 359399518494, 73587651353180), (65, 210322000074, 7478159856730),
  (73, 131083648835, 1127266747640020), (55, 133161298098, 1830069368504279),
  (65, 421150522641, 4975702547180), (61, 566161679402, 1746885519794540),
  (53, 430231233835, 1884922754997420), (55, 263906959481, 5267006959330260),
  (50, 569803054279, 3979376025465480), (49, 77345264124, 3537188726597640),
  (48, 600565977593, 28385931886520), (47, 263299859494, 5186824866217880),
  (46, 5105081843, 3852657435087200), (50, 437549274002, 2851397923125379),
  (46, 293422086586, 2768214074415640), (51, 545979584751, 6053048898574180),
  (45, 559492908223, 46796499035440), (45, 234680401001, 941146461508720),
  (45, 2999265111, 4480965020086340), (43, 562725673544, 1422709400160),
  (47, 373567275749, 6446069868196140), (46, 12586526756, 5737580190084620)]

/-- `vsop87d_dict.py` 7465-7479. -/
def venusL1_2 : List (ℕ × ℕ × ℕ) := [
  (44, 203114426076, 1831492077904440), (39, 99375127466, 9413832702008578),
  (53, 41974404621, 3083130490474460), (55, 138351566741, 3850027603107220),
  (41, 447012768909, 4007761957352000), (41, 36665992484, 1999997290154599),
  (40, 306358586355, 81355028395980), (40, 216802870803, 5972866805461800),
  (37, 108739100421, 1708595866572220), (39, 131040309875, 4873985989708300),
  (36, 143280677914, 4245678404709160), (37, 14190533464, 2905078374334920),
  (37, 366792179278, 2095626205751660), (25, 338876180652, 705859846131540),
  (31, 616829805337, 1019251015071860)]

/-- `vsop87d_dict.py` 7264-7480. -/
def venusL1 : List (ℕ × ℕ × ℕ) := List.flatten [
  venusL1_0, venusL1_1, venusL1_2]

/-- `vsop87d_dict.py` 7482-7551. -/
def venusL2_0 : List (ℕ × ℕ × ℕ) := [
  (54127076, 0, 0), (3891460, 34514360047, 1021328554621100),
  (1337880, 202011286082, 2042657109242200), (23836, 204592119012, 2629831979980),
  (19331, 353527371458, 3063985663863300), (9984, 397130221102, 77552261132400),
  (7046, 151962593409, 157734354244780), (6014, 99926757893, 19144826611160),
  (3163, 436095475762, 943776293488700), (2125, 265810625752, 4085314218484400),
  (1934, 339287946981, 38289653222320), (1460, 604899046273, 52969096509460),
  (1346, 294633106219, 550755323866740), (1025, 140598904981, 1040473381232260),
  (1221, 373339139385, 315468708489560), (1033, 352858472904, 1101510647733480),
  (955, 511133878923, 80182093112380), (742, 149198584483, 110937855209340),
  (525, 332087042103, 21329909543800), (578, 92614279843, 1023958386601080),
  (602, 519220099775, 708489678111520), (431, 267159914364, 1336797263110660),
  (389, 414116341739, 863594200376320), (355, 112061570874, 915390361602180),
  (301, 390047984197, 1059618207843420), (212, 532697688872, 1883749819713819),
  (260, 22761369281, 235286615377180), (243, 470747902991, 628307584999140),
  (196, 410467294392, 1179062908865880), (194, 601197759470, 786041939243920),
  (140, 497015671653, 1414349524243060), (134, 410529011674, 1729818232732620),
  (119, 339375528828, 1132266409830440), (126, 9854516140, 1807370493865020),
  (122, 592478855457, 57434479833480), (107, 35660030184, 105938193018920),
  (108, 225352052666, 1256615169998280), (93, 548716819776, 1002183728009940),
  (84, 489744332968, 1830780723204360), (74, 235354025573, 42659819087600),
  (93, 499316908815, 1494531617355440), (69, 386409065860, 5106642773105500),
  (82, 536280178643, 1018698722641120), (77, 375728548372, 372350895892300),
  (63, 539882267787, 2122839202354580), (56, 411564786973, 706412138562280),
  (56, 626920407723, 3221720018108080), (60, 502186497542, 1936718916223280),
  (58, 513263709670, 2040027277262220), (51, 452870390511, 2200391463486980),
  (41, 383822107919, 1649636139620240), (41, 336020411807, 470573230754360),
  (43, 598371820588, 1572083878487840), (47, 18498155367, 1887552586977400),
  (38, 52232581277, 155104522264800), (39, 505391675878, 1074297651130560),
  (36, 316242472203, 2045286941222180), (35, 517462577483, 2908881141598500),
  (35, 347325394141, 2435678078864160), (31, 474511706231, 2852109277825460),
  (29, 19383091192, 1989688012732740), (33, 180059867635, 2061801935853360),
  (24, 14022912457, 2120209370374600), (22, 473565067573, 1098880815753500),
  (18, 74039763161, 2515860171976540), (19, 153770232218, 2828699048486120),
  (14, 149084059765, 3011016567353840), (13, 472171283479, 2986433402730900),
  (13, 579700427846, 2958047470844380), (14, 369205225010, 2751146787353720)]

/-- `vsop87d_dict.py` 7481-7552. -/
def venusL2 : List (ℕ × ℕ × ℕ) := venusL2_0

/-- `vsop87d_dict.py` 7554-7562. -/
def venusL3_0 : List (ℕ × ℕ × ℕ) := [
  (135742, 480389020993, 1021328554621100), (77846, 366876371591, 2042657109242200),
  (26023, 0, 0), (1214, 531970006917, 3063985663863300),
  (254, 415021671822, 4085314218484400), (8, 555523563261, 5106642773105500),
  (8, 140501229148, 157734354244780), (6, 127791479726, 1040473381232260),
  (6, 576447068962, 1023958386601080)]

/-- `vsop87d_dict.py` 7553-7563. -/
def venusL3 : List (ℕ × ℕ × ℕ) := venusL3_0

/-- `vsop87d_dict.py` 7565-7569. -/
def venusL4_0 : List (ℕ × ℕ × ℕ) := [
  (114016, 314159265359, 0), (3209, 520514170164, 2042657109242200),
  (1714, 251099591706, 1021328554621100), (50, 71356059861, 3063985663863300),
  (23, 568127607034, 4085314218484400)]

/-- `vsop87d_dict.py` 7564-7570. -/
def venusL4 : List (ℕ × ℕ × ℕ) := venusL4_0

/-- `vsop87d_dict.py` 7572-7576. -/
def venusL5_0 : List (ℕ × ℕ × ℕ) := [
  (874, 314159265359, 0), (117, 54643013000, 2042657109242200),
  (118, 190548541922, 1021328554621100), (2, 107734277826, 4085314218484400),
  (2, 189460223529, 3063985663863300)]

/-- `vsop87d_dict.py` 7571-7577. -/
def venusL5 : List (ℕ × ℕ × ℕ) := venusL5_0

/-- `vsop87d_dict.py` 6894-7578 `_planets[("Venus", "L")]`. -/
def venusL : List (List (ℕ × ℕ × ℕ)) :=
  [venusL0, venusL1, venusL2, venusL3, venusL4, venusL5]

/-- `vsop87d_dict.py` 7581-7680. -/
def venusB0_0 : List (ℕ × ℕ × ℕ) := [
  (5923638472, 26702775813, 1021328554621100), (40107978, 114737178106, 2042657109242200),
  (32814918, 314159265359, 0), (1011392, 108946123021, 3063985663863300),
  (149458, 625390296069, 1807370493865020), (137788, 86020146523, 157734354244780),
  (129973, 367152483651, 943776293488700), (119507, 370468812804, 235286615377180),
  (107971, 453903677647, 2200391463486980), (92029, 153954562706, 915390361602180),
  (52982, 228138172277, 550755323866740), (45617, 72319641722, 1023958386601080),
  (38855, 293437865147, 1018698722641120), (43491, 614015776699, 1179062908865880),
  (41700, 599126845246, 1989688012732740), (39644, 386842095901, 863594200376320),
  (39175, 394960351174, 52969096509460), (33320, 483194909595, 1414349524243060),
  (23711, 290646621218, 1098880815753500), (23500, 200770618322, 1336797263110660),
  (21809, 269701424951, 1965104848109800), (20653, 98666685459, 77552261132400),
  (16976, 413711782135, 1002183728009940), (17835, 596268643102, 2593412433108940),
  (14949, 561075168206, 1040473381232260), (18579, 180529277514, 4085314218484400),
  (15407, 329563855296, 1101510647733480), (12936, 542651448496, 2958047470844380),
  (11962, 357604253827, 1074297651130560), (11827, 119070919600, 862421265092720),
  (11466, 512780364967, 628307584999140), (9484, 275167834335, 19144826611160),
  (13129, 570735942511, 968359458111640), (8583, 43182249199, 978668735533500),
  (9763, 14614896296, 2061801935853360), (8148, 130548515603, 1572083878487840),
  (6050, 626541665966, 1132266409830440), (5955, 492235372433, 105938193018920),
  (6983, 344920932146, 1729818232732620), (6228, 113312070908, 2986433402730900),
  (6186, 492498052443, 1936718916223280), (6155, 242413946900, 470573230754360),
  (5204, 342528906628, 910390699411760), (6000, 357639095526, 315468708489560),
  (4796, 386676184909, 786041939243920), (5289, 499182712443, 708489678111520),
  (4070, 558798144740, 1256615169998280), (3942, 568758787835, 1020617199921020),
  (3797, 389520601076, 1019251015071860), (3798, 606410995916, 1023406094170340),
  (3579, 73789669235, 455195349705880), (3641, 261501257205, 1587461759536320),
  (3266, 97517223854, 2358125817731760), (2813, 29951755546, 941146461508720),
  (3048, 251085146990, 3379454372352860), (2559, 458043833032, 80182093112380),
  (2462, 505790874754, 2905078374334920), (2593, 573113176751, 2021327199698400),
  (2625, 424272906574, 21329909543800), (2246, 82112963936, 2828699048486120),
  (2229, 222457598233, 1042658464164900), (1742, 148394229233, 705859846131540),
  (1660, 542775825275, 3221720018108080), (1491, 464883377941, 110937855209340),
  (2010, 75702888128, 999998645077300), (1562, 393962080463, 3772475341974820),
  (1538, 217309577080, 2153594964451540), (1546, 470759186462, 1494531617355440),
  (1200, 148282382657, 983038901398780), (1224, 555090394449, 566133204915220),
  (1111, 120276209213, 957338825989700), (1064, 198891375536, 2629831979980),
  (1041, 538535116069, 711354700080), (1036, 116719443387, 866224032356300),
  (1143, 320596958337, 353206069281140), (1201, 81913312536, 809452168583260),
  (1005, 238429892132, 2751146787353720), (1047, 456525030769, 2041945754542119),
  (968, 618496721871, 2515860171976540), (1044, 198055689074, 1059618207843420),
  (962, 48573513747, 2395863178523340), (846, 1566400887, 312838876509580),
  (792, 539686899735, 2435678078864160), (858, 534692750735, 4165496311596780),
  (757, 625904553773, 2045286941222180), (801, 462406152514, 992942622734580),
  (802, 537234892520, 1049714486507620), (750, 385219782842, 2122839202354580),
  (700, 198097957188, 393020969621960), (719, 611596800207, 1021880847051840),
  (672, 623429601219, 1476523904326980), (639, 537566437358, 158907289528380),
  (605, 242330391120, 1025131321884680), (726, 616683781802, 1887552586977400),
  (613, 599731180690, 473203062734340), (720, 384286345199, 1020776262190360),
  (637, 617053891156, 1022039909321180), (515, 103001478293, 2277943724619380),
  (574, 43813688572, 1708595866572220), (510, 141065159851, 916101716302260)]

/-- `vsop87d_dict.py` 7681-7780. -/
def venusB0_1 : List (ℕ × ℕ × ℕ) := [
  (569, 334601425125, 334061242669980), (608, 125236241968, 1017525787357520),
  (524, 239794248670, 2608790314157420), (542, 134665646732, 2908881141598500),
  (527, 401994270827, 1884922754997420), (569, 165498800378, 3926406928956020),
  (518, 496996115446, 3021325844775700), (514, 578413007838, 1259245001978260),
  (538, 456198493922, 1006372234907640), (484, 418538027381, 1491901785375460),
  (493, 479939382739, 914679006902100), (427, 376876868949, 1127266747640020),
  (495, 49175293655, 4558517281218740), (494, 374345863918, 3144167756975680),
  (524, 97991794166, 3011016567353840), (483, 187898057316, 5106642773105500),
  (505, 370047474212, 2040027277262220), (351, 434026574490, 1013701947493540),
  (355, 556672554631, 1883749819713819), (328, 378427378910, 668122485339960),
  (349, 420550749672, 2095626205751660), (333, 444969281739, 2852109277825460),
  (296, 283205515646, 1727740693183380), (311, 257334132897, 2080946762464520),
  (294, 75089224483, 314916416058820), (377, 398143308775, 2120209370374600),
  (272, 556183082489, 1649636139620240), (314, 2584607093, 1374534623902240),
  (263, 55328410985, 3614740987730040), (286, 516408902215, 42659819087600),
  (279, 429871615943, 1999997290154599), (280, 192925047377, 4951538250840700),
  (265, 481168402147, 2023512282631040), (273, 512740051559, 3537188726597640),
  (306, 528903794869, 38289653222320), (223, 250591724074, 2670964694241340),
  (235, 596522395118, 1019803307502600), (234, 352866583267, 1022853801739600),
  (224, 624561979789, 706412138562280), (251, 284739274245, 3301902111220460),
  (196, 150610393790, 3174923519072640), (192, 169321442572, 1334167431130680),
  (180, 619353087076, 3979376025465480), (199, 116433321880, 2280573556599360),
  (180, 372646417141, 155104522264800), (173, 335235705827, 5344559220462660),
  (195, 151901264131, 4323230665841560), (174, 284049662693, 996745389998160),
  (163, 429160537719, 3694923080842420), (169, 37000676558, 1045911719244040),
  (137, 561149803116, 1052967741586760), (139, 87847805052, 1652265971600220),
  (139, 412576475427, 3630118868778519), (127, 514447758616, 548125491886760),
  (131, 311317801589, 989689367655440), (131, 89697384735, 344257494496540),
  (121, 132802112907, 3873437832446560), (122, 159017183044, 1011019277199240),
  (123, 233714216061, 1031637832042960), (133, 290682399304, 979380090233580),
  (111, 252077634760, 1393679450513400), (120, 36076947165, 53680451209540),
  (115, 253355582059, 2673594526221320), (108, 265839634325, 1023295530711079),
  (108, 55230439694, 1019361578531121), (138, 106919239240, 6523622129328540),
  (101, 317012502017, 1931719254032860), (127, 563110477712, 1028806714477830),
  (127, 386278127025, 1013850394764370), (137, 293350659460, 4716251635463520),
  (95, 503917884334, 5217580628314840), (94, 71308489207, 3850027603107220),
  (92, 546204624886, 1176433076885900), (96, 152914774412, 969070812811720),
  (101, 83318284426, 648977658728800), (115, 376443612245, 52257741809380),
  (89, 253312656681, 1073586296430480), (82, 85628515615, 237916447357160),
  (103, 522683237620, 10309277421860), (90, 212423586627, 2831328880466100),
  (90, 39668501735, 958050180689780), (74, 602680095550, 372350895892300),
  (81, 525045057985, 1041947109464820), (80, 423724598221, 1000709999777380),
  (91, 248874147947, 1084606928552420), (85, 382784790321, 5186824866217880),
  (81, 226235214191, 390391137641980), (97, 77295091600, 1830780723204360),
  (94, 17063414792, 687267311951120), (80, 562254102739, 2999995935231900),
  (68, 271762936670, 1698399614745660), (66, 76731351736, 2077539549240),
  (75, 36155638007, 3930209696219600), (75, 227327165974, 852111987670860),
  (58, 214482855875, 863132619792800), (64, 583569051301, 211876386037840),
  (58, 298524209824, 1988976658032659), (54, 178260668333, 4007761957352000),
  (55, 470485939861, 63989728631400), (60, 589661892920, 4196252073693740)]

/-- `vsop87d_dict.py` 7781-7790. -/
def venusB0_2 : List (ℕ × ℕ × ℕ) := [
  (66, 224746237999, 7478159856730), (61, 340726181591, 2749069247804480),
  (51, 307811180039, 2415008005134500), (57, 230081371235, 2052966386664059),
  (52, 237192464233, 2957336116144300), (52, 476610409132, 5737580190084620),
  (47, 161630288856, 3083130490474460), (54, 589684197257, 1990399367432819),
  (40, 532101847424, 4243048572729180), (51, 529186795569, 2958758825544460)]

/-- `vsop87d_dict.py` 7580-7791. -/
def venusB0 : List (ℕ × ℕ × ℕ) := List.flatten [
  venusB0_0, venusB0_1, venusB0_2]

/-- `vsop87d_dict.py` 7793-7892. -/
def venusB1_0 : List (ℕ × ℕ × ℕ) := [
  (513347602, 180364310797, 1021328554621100), (4380100, 338615711591, 2042657109242200),
  (196586, 253001197486, 3063985663863300), (199162, 0, 0),
  (14031, 227087044687, 943776293488700), (12958, 150735622957, 1807370493865020),
  (11941, 560462450426, 157734354244780), (10324, 524224313355, 235286615377180),
  (9294, 607545631303, 2200391463486980), (7441, 150257909439, 1179062908865880),
  (8031, 29371105198, 915390361602180), (7514, 508081885990, 1018698722641120),
  (4669, 387801635015, 1023958386601080), (4399, 358872736593, 4085314218484400),
  (3975, 128397121206, 1040473381232260), (4657, 75073886819, 550755323866740),
  (3783, 433004753984, 1965104848109800), (3390, 488976070903, 1098880815753500),
  (3555, 125927550356, 1989688012732740), (3479, 550797002160, 52969096509460),
  (2884, 8549582037, 1414349524243060), (1786, 37134513186, 1336797263110660),
  (1600, 168378002982, 2061801935853360), (1539, 121683853657, 2593412433108940),
  (1341, 290077139758, 1572083878487840), (993, 174681248965, 1132266409830440),
  (1165, 613437155401, 786041939243920), (1115, 66743690380, 2958047470844380),
  (923, 225384969096, 1002183728009940), (965, 136425494833, 968359458111640),
  (973, 39071758442, 628307584999140), (805, 53331923557, 862421265092720),
  (913, 76046003719, 863594200376320), (991, 55319879330, 1936718916223280),
  (609, 262364470139, 2358125817731760), (532, 510925676528, 978668735533500),
  (476, 617672999981, 1101510647733480), (472, 169672629200, 1729818232732620),
  (503, 265840772485, 2986433402730900), (456, 501205315518, 1074297651130560),
  (478, 394100005156, 77552261132400), (477, 371554345922, 1059618207843420),
  (347, 234551062680, 941146461508720), (458, 231894399069, 999998645077300),
  (374, 376878356974, 2122839202354580), (440, 433400244581, 1587461759536320),
  (349, 131468836511, 1023406094170340), (310, 545422332781, 1019251015071860),
  (346, 94242286364, 105938193018920), (308, 490145899142, 393020969621960),
  (331, 489498986674, 1020617199921020), (269, 239650266204, 80182093112380),
  (269, 589873499, 983038901398780), (261, 348196147279, 705859846131540),
  (290, 10953964861, 2905078374334920), (283, 612133736787, 2041945754542119),
  (232, 307845850030, 1256615169998280), (265, 402431894973, 3379454372352860),
  (220, 237315851889, 455195349705880), (247, 307626728158, 2828699048486120),
  (202, 356872121409, 2153594964451540), (225, 576888896320, 21329909543800),
  (217, 88382111135, 2021327199698400), (172, 612653050186, 916101716302260),
  (195, 547240855400, 3772475341974820), (153, 407656151671, 2751146787353720),
  (174, 133676849359, 3221720018108080), (157, 598474214437, 2629831979980),
  (163, 545519134760, 1042658464164900), (129, 208748660996, 312838876509580),
  (131, 151959002513, 1021880847051840), (139, 442330401713, 1022039909321180),
  (126, 262296638037, 2277943724619380), (146, 469869606856, 2515860171976540),
  (172, 613435208788, 1883749819713819), (157, 544507403858, 470573230754360),
  (117, 618296175153, 2040027277262220), (164, 330849473132, 5106642773105500),
  (113, 364412860654, 711354700080), (109, 521220660788, 866224032356300),
  (133, 178047296245, 19144826611160), (117, 14681677884, 914679006902100),
  (116, 61940521198, 4165496311596780), (96, 149631428731, 708489678111520),
  (96, 121744230443, 1019803307502600), (82, 145863866349, 1020776262190360),
  (85, 604057728058, 2120209370374600), (83, 19985600927, 1491901785375460),
  (77, 550132310610, 566133204915220), (77, 200173927326, 1022853801739600),
  (93, 185466268819, 4558517281218740), (66, 325826124156, 110937855209340),
  (89, 64100435648, 315468708489560), (61, 380043027736, 1127266747640020),
  (77, 185516358950, 353206069281140), (62, 81341290651, 38289653222320),
  (72, 235312965005, 910390699411760), (53, 321969389511, 2045286941222180),
  (67, 142090542131, 2435678078864160), (56, 297733070198, 3011016567353840)]

/-- `vsop87d_dict.py` 7893-7925. -/
def venusB1_1 : List (ℕ × ℕ × ℕ) := [
  (51, 422406663447, 2080946762464520), (58, 620761936031, 2908881141598500),
  (61, 327309494322, 4951538250840700), (46, 549443476235, 3144167756975680),
  (50, 416651052942, 1334167431130680), (47, 125473247769, 3301902111220460),
  (47, 203402044389, 2395863178523340), (36, 524409311105, 314916416058820),
  (38, 415337829669, 1884922754997420), (42, 43005959574, 158907289528380),
  (41, 121289342964, 1259245001978260), (38, 591928287144, 2852109277825460),
  (33, 398241699279, 473203062734340), (35, 224417218267, 1649636139620240),
  (40, 613293942728, 2608790314157420), (44, 178123294860, 42659819087600),
  (41, 316744909855, 3926406928956020), (33, 496183427323, 53680451209540),
  (34, 12963030501, 3021325844775700), (36, 541167321573, 52257741809380),
  (27, 444250239485, 1727740693183380), (34, 594541303751, 992942622734580),
  (33, 40689057274, 1049714486507620), (23, 259067946967, 1017525787357520),
  (22, 69625017371, 1999997290154599), (23, 376162101633, 1025131321884680),
  (23, 62711494266, 3537188726597640), (22, 464142978776, 1988976658032659),
  (20, 401315480107, 2670964694241340), (20, 403344400680, 2957336116144300),
  (23, 90416640595, 809452168583260), (22, 192092469688, 1708595866572220),
  (19, 504938942644, 668122485339960)]

/-- `vsop87d_dict.py` 7792-7926. -/
def venusB1 : List (ℕ × ℕ × ℕ) := List.flatten [
  venusB1_0, venusB1_1]

/-- `vsop87d_dict.py` 7928-7986. -/
def venusB2_0 : List (ℕ × ℕ × ℕ) := [
  (22377665, 338509143877, 1021328554621100), (281739, 0, 0),
  (173164, 525563766915, 2042657109242200), (26945, 387040891568, 3063985663863300),
  (1174, 9768632072, 1018698722641120), (685, 319139067811, 1179062908865880),
  (788, 436515965295, 1023958386601080), (592, 522270440328, 4085314218484400),
  (515, 612821215207, 1098880815753500), (538, 57550272342, 235286615377180),
  (540, 311657836329, 1807370493865020), (454, 279306867629, 1040473381232260),
  (374, 610468482446, 943776293488700), (431, 400778431184, 157734354244780),
  (360, 601747842320, 1965104848109800), (375, 131319959789, 2200391463486980),
  (354, 512509281266, 915390361602180), (150, 458623687118, 1572083878487840),
  (164, 541790158607, 550755323866740), (159, 278191550878, 1989688012732740),
  (157, 65774905071, 52969096509460), (155, 254824315372, 968359458111640),
  (109, 201866665583, 1414349524243060), (106, 228289033017, 628307584999140),
  (115, 323636374193, 2061801935853360), (128, 532400510939, 1336797263110660),
  (87, 328265082435, 1132266409830440), (90, 523585072275, 1059618207843420),
  (55, 482369879741, 705859846131540), (44, 58444963462, 1020617199921020),
  (44, 234401612969, 1936718916223280), (38, 455053233088, 999998645077300),
  (39, 584340580032, 1022039909321180), (36, 441006216127, 5106642773105500),
  (39, 314348236386, 941146461508720), (33, 455748660340, 1074297651130560),
  (37, 279630938717, 2593412433108940), (34, 55287110072, 1101510647733480),
  (34, 225809144959, 2958047470844380), (38, 188638747393, 80182093112380),
  (34, 122706917271, 1002183728009940), (27, 483867137637, 983038901398780),
  (27, 431140179350, 2358125817731760), (27, 217187621336, 863594200376320),
  (20, 566581696952, 2122839202354580), (24, 217208107850, 1884922754997420),
  (20, 529318634138, 77552261132400), (19, 273486845601, 312838876509580),
  (13, 340362915274, 105938193018920), (14, 5074160195, 786041939243920),
  (14, 543035907265, 2629831979980), (12, 324834347355, 910390699411760),
  (13, 504826725887, 711354700080), (15, 142027402522, 2905078374334920),
  (10, 498138067490, 1042658464164900), (11, 85773045784, 1729818232732620),
  (11, 423048200054, 2986433402730900), (10, 26447399758, 393020969621960),
  (11, 146728576671, 2041945754542119)]

/-- `vsop87d_dict.py` 7927-7987. -/
def venusB2 : List (ℕ × ℕ × ℕ) := venusB2_0

/-- `vsop87d_dict.py` 7989-8003. -/
def venusB3_0 : List (ℕ × ℕ × ℕ) := [
  (646671, 499166565277, 1021328554621100), (19952, 314159265359, 0),
  (5540, 77376923951, 2042657109242200), (2526, 544493763020, 3063985663863300),
  (79, 151447613604, 1018698722641120), (56, 63647808442, 4085314218484400),
  (58, 570731176550, 1023958386601080), (31, 472523061067, 1179062908865880),
  (26, 102068113372, 1098880815753500), (25, 560599130442, 943776293488700),
  (17, 205293621864, 235286615377180), (11, 433056892256, 1040473381232260),
  (9, 136283915068, 1965104848109800), (7, 469592781899, 1807370493865020),
  (6, 297926526705, 2200391463486980)]

/-- `vsop87d_dict.py` 7988-8004. -/
def venusB3 : List (ℕ × ℕ × ℕ) := venusB3_0

/-- `vsop87d_dict.py` 8006-8010. -/
def venusB4_0 : List (ℕ × ℕ × ℕ) := [
  (14102, 31537190181, 1021328554621100), (190, 235466404492, 2042657109242200),
  (164, 74476215141, 3063985663863300), (214, 314159265359, 0),
  (4, 234190883009, 4085314218484400)]

/-- `vsop87d_dict.py` 8005-8011. -/
def venusB4 : List (ℕ × ℕ × ℕ) := venusB4_0

/-- `vsop87d_dict.py` 8013-8016. -/
def venusB5_0 : List (ℕ × ℕ × ℕ) := [
  (239, 205201727566, 1021328554621100), (39, 0, 0),
  (11, 382500275251, 2042657109242200), (9, 232953116868, 3063985663863300)]

/-- `vsop87d_dict.py` 8012-8017. -/
def venusB5 : List (ℕ × ℕ × ℕ) := venusB5_0

/-- `vsop87d_dict.py` 7579-8018 `_planets[("Venus", "B")]`. -/
def venusB : List (List (ℕ × ℕ × ℕ)) :=
  [venusB0, venusB1, venusB2, venusB3, venusB4, venusB5]

/-- `vsop87d_dict.py` 8021-8120. -/
def venusR0_0 : List (ℕ × ℕ × ℕ) := [
  (72334820905, 0, 0), (489824185, 402151832268, 1021328554621100),
  (1658058, 490206728012, 2042657109242200), (1632093, 284548851892, 786041939243920),
  (1378048, 112846590600, 1179062908865880), (498399, 258682187717, 968359458111640),
  (373958, 142314837063, 393020969621960), (263616, 552938185920, 943776293488700),
  (237455, 255135903978, 1572083878487840), (221983, 201346776772, 1936718916223280),
  (119467, 301975365264, 1040473381232260), (125896, 272769833559, 157734354244780),
  (76178, 159577224486, 915390361602180), (85336, 398607953754, 1965104848109800),
  (74347, 411957854039, 550755323866740), (41904, 164273363458, 1883749819713819),
  (42493, 381864530735, 1336797263110660), (39430, 539019422358, 2358125817731760),
  (29042, 567739528728, 566133204915220), (27555, 572392407794, 77552261132400),
  (27283, 482151812709, 1101510647733480), (31274, 231806719544, 999998645077300),
  (19700, 496157560245, 1132266409830440), (19809, 53189326492, 2751146787353720),
  (13567, 375530870628, 1807370493865020), (12921, 113381083556, 1020617199921020),
  (16215, 56453834290, 52969096509460), (11821, 509025877427, 315468708489560),
  (11728, 23432298744, 708489678111520), (13079, 524353197586, 1729818232732620),
  (13180, 337207825651, 1374534623902240), (9097, 307004895769, 110937855209340),
  (10818, 245024712908, 1023958386601080), (11438, 456838894696, 2905078374334920),
  (8377, 578327612352, 3063985663863300), (8193, 195023111860, 2200391463486980),
  (9308, 161615909286, 235286615377180), (10652, 195528396140, 3144167756975680),
  (10357, 120234990061, 1587461759536320), (9585, 146639856228, 1999997290154599),
  (6506, 217390732263, 1414349524243060), (7562, 113789564977, 862421265092720),
  (6434, 84419623033, 628307584999140), (5898, 1093731110, 863594200376320),
  (5632, 394956548631, 1256615169998280), (5523, 127394296557, 1830780723204360),
  (4488, 247835729057, 19144826611160), (4529, 473027770400, 1989688012732740),
  (6193, 325881250939, 687267311951120), (6070, 35337419942, 2122839202354580),
  (4315, 259737099519, 455195349705880), (6005, 337874723475, 3537188726597640),
  (3852, 101162850357, 978668735533500), (4033, 50855580, 80182093112380),
  (3920, 556542869407, 1059618207843420), (2709, 580195530112, 706412138562280),
  (3216, 39767254848, 1018698722641120), (3089, 626174762876, 1494531617355440),
  (2982, 421196716354, 2852109277825460), (3284, 70709821006, 1074297651130560),
  (3484, 479878191875, 3930209696219600), (3172, 180518954174, 2515860171976540),
  (2463, 68708153678, 1098880815753500), (2374, 377948685343, 2153594964451540),
  (2198, 282996372521, 866224032356300), (1958, 541763804167, 1649636139620240),
  (1876, 263426768393, 2958047470844380), (1902, 285782199133, 353206069281140),
  (1706, 367573010379, 2629831979980), (1817, 41611036449, 470573230754360),
  (1858, 150368318296, 1002183728009940), (2087, 622112874639, 4323230665841560),
  (1950, 221447019683, 1978667380610799), (1497, 134773824, 1727740693183380),
  (1819, 323144993268, 2908881141598500), (1423, 585979618707, 967648103411560),
  (1223, 555818994329, 677071060124560), (1140, 592088900094, 1393679450513400),
  (1484, 247665429253, 3174923519072640), (1185, 142087628351, 473203062734340),
  (1323, 248821075422, 969070812811720), (1249, 188323673734, 1937430270923360),
  (1270, 524647873116, 1936007561523199), (1402, 517536780118, 1031637832042960),
  (1042, 305454698508, 2593412433108940), (1174, 142913732999, 1887552586977400),
  (1278, 135747287297, 4716251635463520), (917, 626337648765, 2061801935853360),
  (905, 112740203561, 1259245001978260), (1093, 464451720605, 3301902111220460),
  (1014, 109259406433, 105938193018920), (783, 202118183873, 2435678078864160),
  (779, 41585274010, 334061242669980), (700, 114936815714, 1698399614745660),
  (878, 87852464964, 3873437832446560), (623, 89976912165, 1777811626694899),
  (608, 158476225197, 957338825989700), (800, 394213003073, 1013850394764370),
  (760, 131851313748, 996745389998160), (802, 278173370208, 5109272605085480)]

/-- `vsop87d_dict.py` 8121-8220. -/
def venusR0_1 : List (ℕ × ℕ × ℕ) := [
  (664, 445864682400, 312838876509580), (674, 511214939998, 38289653222320),
  (530, 85392938403, 1023406094170340), (509, 356809374595, 2828699048486120),
  (600, 425927726907, 4196252073693740), (601, 578144137895, 21329909543800),
  (595, 283045104588, 2280573556599360), (673, 606079908421, 3694923080842420),
  (535, 585422519711, 910390699411760), (544, 544806074800, 372350895892300),
  (492, 383802404893, 2799140181316000), (635, 76494024849, 809452168583260),
  (434, 622214487735, 2719728169366760), (459, 355062885479, 2021327199698400),
  (398, 616269975784, 1042658464164900), (378, 241665947591, 1884461174413899),
  (421, 486552697954, 914679006902100), (500, 420351458644, 5502293574707440),
  (404, 495834410782, 3741056723987860), (402, 297963246945, 1022039909321180),
  (464, 259869499733, 1873440542291960), (352, 8963076359, 1010307922499160),
  (348, 490260339364, 1883038465013739), (338, 322520096478, 2415008005134500),
  (375, 617532088136, 2608790314157420), (425, 120052578280, 4087944050464380),
  (408, 312833060705, 905081084180320), (385, 194284690176, 28385931886520),
  (337, 487838699272, 1243204265039780), (326, 427369741426, 2673594526221320),
  (309, 50597475053, 3820468735937100), (329, 388430599153, 2986433402730900),
  (313, 136138752543, 1019251015071860), (347, 358439807209, 2749069247804480),
  (251, 378618457047, 1006372234907640), (244, 383523342668, 941146461508720),
  (281, 450895206233, 3221720018108080), (237, 87748812245, 668122485339960),
  (315, 562657778233, 5895314544329400), (311, 415626121491, 1017515251057320),
  (247, 253637594113, 1652265971600220), (219, 508729383251, 705859846131540),
  (291, 372567217056, 2999995935231900), (267, 297685503991, 1957337471066999),
  (280, 370200084294, 4762385278608960), (239, 394545782067, 958050180689780),
  (246, 218244883930, 916101716302260), (253, 269506547016, 344257494496540),
  (265, 262811801237, 4480965020086340), (194, 478926136175, 3379454372352860),
  (187, 365620881095, 2045286941222180), (224, 243601863127, 999287290377220),
  (193, 255112161845, 237916447357160), (201, 190356905733, 155104522264800),
  (176, 429837616553, 1013701947493540), (184, 616061560223, 3614740987730040),
  (175, 271984797040, 2080946762464520), (186, 255098927966, 1491901785375460),
  (161, 413272567123, 2395863178523340), (221, 483552377614, 2027700789528740),
  (160, 181472642729, 1078763034454580), (199, 574259798330, 3066615495843280),
  (160, 446270605493, 1894770451835760), (187, 298688597588, 221875710418680),
  (189, 534607810282, 1000709999777380), (198, 77846666692, 6288335513951360),
  (144, 500261963924, 926410993724120), (171, 205212624568, 725556965173440),
  (188, 408173534559, 4873985989708300), (146, 394191715702, 630937416979120),
  (146, 506313558118, 3926406928956020), (135, 593689169614, 3772475341974820),
  (139, 281266025896, 2077539549240), (177, 516224804657, 983591193829520),
  (119, 137254262864, 4007761957352000), (120, 21443767468, 3102275317085620),
  (128, 292458887798, 711354700080), (150, 573646272556, 63278373931320),
  (106, 62224833817, 1127266747640020), (114, 263301326520, 1746885519794540),
  (123, 622518843711, 5328518483524180), (107, 117258978900, 4307189928903080),
  (103, 109613781581, 4165496311596780), (109, 201412667085, 2041945754542119),
  (102, 423406964348, 1025131321884680), (116, 127731728606, 1019905845220940),
  (103, 525887538465, 983038901398780), (112, 224436894064, 1820471445782499),
  (111, 223547857955, 852111987670860), (118, 23754207200, 1049714486507620),
  (123, 88054816668, 3459636465465240), (102, 439438646620, 1830069368504279),
  (131, 601711652115, 936720271145980), (100, 500532389609, 1017525787357520),
  (107, 41270197502, 4085314218484400), (132, 545008342761, 1150676976979360),
  (98, 107722950958, 1355389797291080), (94, 291720097590, 4400782926973960),
  (97, 104004223634, 6805042387851159), (127, 220215372683, 6681356483573320)]

/-- `vsop87d_dict.py` 8221-8320. -/
def venusR0_2 : List (ℕ × ℕ × ℕ) := [
  (111, 157823839032, 2904367019634839), (118, 233268176890, 1831492077904440),
  (90, 242353056125, 3285861374281979), (109, 382796787296, 1947028193645139),
  (111, 447666957576, 2905789729034999), (101, 341528493660, 1926409638801420),
  (92, 366289799512, 2264532819660879), (94, 607530805791, 1084606928552420),
  (114, 402718653431, 757656007357400), (87, 601842459303, 1708595866572220),
  (109, 546886607309, 5267006959330260), (107, 54805946713, 3436336559755600),
  (108, 544460610707, 1905079729257620), (76, 615177368654, 2768214074415640),
  (107, 480525404063, 814427871130440), (73, 160549217847, 2095626205751660),
  (97, 513542051130, 2277943724619380), (68, 231300447144, 863132619792800),
  (91, 428652743953, 1011019277199240), (93, 527290609264, 52257741809380),
  (71, 365565961690, 1176433076885900), (89, 179712963206, 4558517281218740),
  (67, 225900071584, 936008916445900), (85, 67062144972, 5660027928952220),
  (80, 158278081077, 1999285935454519), (65, 623472325597, 1041947109464820),
  (64, 53356325917, 1724842530185440), (85, 452011215904, 2978666025688100),
  (68, 448235266554, 1063277019008620), (64, 433495700921, 4793803896595920),
  (71, 303858484137, 1178710597030980), (87, 481823063172, 210703450754240),
  (70, 235648061034, 1179415220700780), (80, 233248094128, 3852657435087200),
  (70, 370454061100, 873441897214660), (77, 449569185467, 2000708644854680),
  (72, 119410424468, 1021721769947410), (68, 201841060183, 1412824277124560),
  (64, 539293951654, 788008915333899), (66, 320467071127, 1476523904326980),
  (80, 341620457770, 4841797290558199), (80, 339651161571, 24583164622940),
  (66, 585414440204, 979380090233580), (82, 362592908644, 7074377453195279),
  (58, 495174942212, 3011016567353840), (79, 624161471033, 603724420376200),
  (69, 550183658445, 1979378735310880), (56, 124148350566, 1020776262190360),
  (70, 245123308846, 1021880847051840), (64, 553983104501, 1073586296430480),
  (54, 362259713240, 2746171084806540), (73, 175882480924, 158907289528380),
  (75, 338244819846, 421406901508480), (54, 64971567468, 992942622734580),
  (54, 340959637230, 1841801355326299), (56, 365815006538, 1416979356223040),
  (56, 71243223808, 989689367655440), (52, 133348131940, 2040027277262220),
  (67, 312806595400, 548125491886760), (58, 54482893546, 2831328880466100),
  (54, 15603935681, 1958048825767080), (51, 337515473510, 925699639024040),
  (63, 338848970950, 4951538250840700), (69, 490917651401, 6349847038145279),
  (57, 507437742030, 1852110632748160), (50, 159156823654, 1863131264870099),
  (54, 625816208666, 3767499639427640), (57, 548065460919, 2438307910844140),
  (45, 110466490660, 1040825693067160), (51, 361196470313, 42659819087600),
  (57, 209567711267, 6053048898574180), (60, 594659889997, 1389766359620120),
  (51, 547238517720, 5783713833230060), (51, 232438478428, 1977956025910719),
  (52, 323766328818, 1894059097135679), (43, 574921510909, 5186824866217880),
  (48, 112206254877, 977957380833420), (58, 308646083897, 1207448840752400),
  (46, 407536026888, 786394251078820), (45, 475746520642, 785689627409019),
  (54, 443528236634, 861709910392640), (50, 370569982975, 4245678404709160),
  (44, 129248911155, 6916643098950500), (46, 41229872114, 756483072073800),
  (44, 617937388307, 1334167431130680), (53, 471388531889, 5344559220462660),
  (41, 348003037828, 3789542629036740), (40, 123305546260, 1022853801739600),
  (53, 504979874661, 7467398422817240), (39, 136646013032, 2120209370374600),
  (39, 215376025201, 894771806758460), (41, 617532984460, 6523622129328540),
  (52, 129052331493, 9039482301305079), (39, 70253732683, 1809337469954999),
  (52, 118164377451, 1021180107350270), (47, 178672260794, 1040121069397360),
  (40, 366961416802, 1019803307502600), (51, 271698589018, 9432503270927040),
  (36, 125091711620, 1032349186743040), (49, 121335959420, 972162225375220)]

/-- `vsop87d_dict.py` 8321-8350. -/
def venusR0_3 : List (ℕ × ℕ × ℕ) := [
  (42, 605968230173, 10546099111839019), (46, 506978748275, 2035030502114640),
  (40, 197645050921, 3224349850088060), (36, 496702216961, 3630118868778519),
  (37, 529642935562, 3802767263580), (39, 52064327313, 2670964694241340),
  (35, 234112124655, 5894651688439399), (34, 182989750626, 1767502349273040),
  (34, 76493664110, 5579845835839840), (35, 109353675147, 6915980243060499),
  (31, 559148330297, 1063988373708700), (32, 332960781870, 7151929714327680),
  (31, 598191446392, 2434152831745660), (31, 68615213145, 1020223984594710),
  (30, 442039942947, 1045911719244040), (29, 130367701539, 2010306567576459),
  (31, 451793347997, 295771589447660), (35, 405634321290, 1990399367432819),
  (30, 132113757427, 57434479833480), (29, 336506645849, 1028806714477830),
  (29, 140019042576, 998894075050910), (32, 21932095318, 2497852458948080),
  (34, 522945947227, 867396967639900), (39, 450883171158, 1600469810374360),
  (28, 232945945641, 1139248008525060), (34, 392498967835, 53680451209540),
  (32, 546972716255, 6460784893354619), (28, 238858990128, 2023512282631040),
  (30, 334585843979, 3979376025465480), (26, 536096904409, 147886657406440)]

/-- `vsop87d_dict.py` 8020-8351. -/
def venusR0 : List (ℕ × ℕ × ℕ) := List.flatten [
  venusR0_0, venusR0_1, venusR0_2, venusR0_3]

/-- `vsop87d_dict.py` 8353-8452. -/
def venusR1_0 : List (ℕ × ℕ × ℕ) := [
  (34551039, 89198710598, 1021328554621100), (234203, 177224942714, 2042657109242200),
  (233998, 314159265359, 0), (23864, 111274502648, 943776293488700),
  (10568, 459168210921, 157734354244780), (9124, 453540907003, 1040473381232260),
  (6599, 597703999838, 550755323866740), (4667, 387683960551, 915390361602180),
  (3840, 566196924375, 1336797263110660), (2666, 282413291285, 1020617199921020),
  (2194, 205314419626, 77552261132400), (2094, 255137285015, 1883749819713819),
  (1782, 264808558644, 3063985663863300), (1845, 187612936641, 1101510647733480),
  (1303, 20613045603, 1132266409830440), (1169, 79431893441, 1729818232732620),
  (1001, 616555101536, 1023958386601080), (915, 459854496966, 110937855209340),
  (884, 66706834422, 1807370493865020), (849, 558641571940, 1256615169998280),
  (1071, 494792017474, 628307584999140), (887, 247785193216, 315468708489560),
  (904, 81413053841, 1059618207843420), (818, 90016838097, 566133204915220),
  (845, 548504338112, 52969096509460), (824, 374837629121, 708489678111520),
  (652, 507444932607, 2200391463486980), (847, 44119876869, 863594200376320),
  (638, 410125791268, 19144826611160), (615, 314417599741, 1018698722641120),
  (527, 586792949279, 235286615377180), (520, 533201358267, 1414349524243060),
  (576, 225212731258, 2122839202354580), (662, 286880467345, 862421265092720),
  (554, 217186191243, 1830780723204360), (515, 434331395104, 978668735533500),
  (501, 556479589366, 1074297651130560), (426, 102161443120, 706412138562280),
  (418, 126803034691, 967648103411560), (391, 78974645621, 969070812811720),
  (334, 318175822557, 1098880815753500), (375, 66142254036, 1936007561523199),
  (364, 19369831864, 1937430270923360), (313, 109734397626, 455195349705880),
  (330, 58817502306, 1649636139620240), (339, 576768761396, 1002183728009940),
  (291, 365846764668, 2515860171976540), (223, 433581625553, 1978667380610799),
  (266, 357408827667, 80182093112380), (274, 573346687248, 1179062908865880),
  (275, 565814317085, 1989688012732740), (212, 427038489878, 470573230754360),
  (230, 613406345590, 105938193018920), (204, 487348390351, 786041939243920),
  (241, 113551531894, 2629831979980), (206, 31907973682, 38289653222320),
  (216, 254741101724, 1965104848109800), (212, 315264941106, 1494531617355440),
  (163, 113604744392, 1393679450513400), (151, 511341268743, 2852109277825460),
  (151, 81278755582, 677071060124560), (150, 502227334847, 2908881141598500),
  (146, 137568138685, 1022039909321180), (127, 449298610074, 353206069281140),
  (121, 626589208179, 2958047470844380), (147, 616092774714, 866224032356300),
  (114, 114012635, 2593412433108940), (115, 356897715344, 2435678078864160),
  (124, 67547060274, 372350895892300), (145, 36415036222, 914679006902100),
  (104, 427865011376, 957338825989700), (136, 509581116181, 1936718916223280),
  (102, 153637788668, 1727740693183380), (117, 57543238496, 999998645077300),
  (92, 22936081655, 1883038465013739), (112, 404771058036, 910390699411760),
  (98, 378447692407, 21329909543800), (85, 584471458481, 1023406094170340),
  (79, 64440357793, 1884461174413899), (84, 56950139213, 968359458111640),
  (107, 177067111589, 1777811626694899), (81, 619048382717, 2061801935853360),
  (87, 15771136594, 3301902111220460), (82, 480683817059, 393020969621960),
  (86, 221505615071, 809452168583260), (64, 269215119482, 1698399614745660),
  (69, 83385751986, 312838876509580), (81, 488025042367, 473203062734340),
  (59, 334348033725, 1078763034454580), (61, 4044699966, 916101716302260),
  (64, 413127333938, 999287290377220), (60, 624603986632, 3221720018108080),
  (54, 338449893196, 1042658464164900), (54, 515939119644, 2828699048486120),
  (63, 432339245083, 1259245001978260), (60, 448753846170, 1887552586977400),
  (57, 364912085313, 1000709999777380), (49, 510267262491, 1957337471066999),
  (47, 579444960738, 6805042387851159), (52, 356658420552, 725556965173440)]

/-- `vsop87d_dict.py` 8453-8532. -/
def venusR1_1 : List (ℕ × ℕ × ℕ) := [
  (50, 161783309819, 3694923080842420), (53, 264370544855, 1587461759536320),
  (40, 393466530964, 2041945754542119), (51, 79154899901, 2358125817731760),
  (38, 177428239418, 1010307922499160), (49, 112423644455, 344257494496540),
  (40, 522874487975, 2153594964451540), (38, 112473430132, 711354700080),
  (38, 11510547453, 1127266747640020), (36, 202476324983, 705859846131540),
  (47, 5589432390, 1243204265039780), (34, 345481114998, 983038901398780),
  (45, 459817214088, 1019251015071860), (37, 493959675364, 334061242669980),
  (44, 70533027806, 2021327199698400), (34, 216487642765, 6446069868196140),
  (31, 157612397319, 3614740987730040), (28, 256454760402, 9413832702008578),
  (33, 108907268562, 2986433402730900), (29, 59718407064, 5972866805461800),
  (31, 304423979263, 4087944050464380), (35, 32247158762, 158907289528380),
  (31, 327727318906, 1999285935454519), (27, 583705748551, 1708595866572220),
  (32, 264260788260, 4196252073693740), (28, 490613317287, 2905078374334920),
  (25, 455050389739, 1491901785375460), (28, 358851614957, 4085314218484400),
  (29, 279705093386, 2000708644854680), (33, 93862065616, 1572083878487840),
  (24, 274970637101, 1894770451835760), (24, 438966861409, 4638699374331120),
  (24, 73361964525, 941146461508720), (28, 419559784013, 3767499639427640),
  (23, 100023735538, 2277943724619380), (26, 46990555736, 1374534623902240),
  (28, 465181292126, 155104522264800), (25, 418690270765, 4400782926973960),
  (22, 98102807789, 42659819087600), (30, 124986033487, 2746171084806540),
  (27, 394986823486, 1746885519794540), (21, 609897508157, 1830069368504279),
  (25, 475875623888, 2799140181316000), (22, 295281481673, 4007761957352000),
  (28, 612038264955, 3850027603107220), (22, 411184201321, 1977956025910719),
  (27, 372446446080, 1979378735310880), (20, 427086627368, 3144167756975680),
  (22, 499040169444, 3102275317085620), (23, 133505132122, 6523622129328540),
  (21, 446897353468, 5328518483524180), (20, 415140915983, 221875710418680),
  (25, 218447182965, 2751146787353720), (19, 143653410349, 2719728169366760),
  (27, 122555218015, 4243048572729180), (19, 365054338893, 4951538250840700),
  (22, 588380811711, 1021880847051840), (18, 229853355765, 1926409638801420),
  (17, 544429906531, 668122485339960), (20, 368116637773, 1412824277124560),
  (21, 430316190532, 4480965020086340), (20, 248583613985, 3379454372352860),
  (17, 302735393984, 2852820632525540), (19, 592656850674, 2280573556599360),
  (22, 530827572791, 1020776262190360), (20, 75829381378, 1831492077904440),
  (17, 563315744126, 1652265971600220), (16, 171021408448, 53680451209540),
  (15, 527016880041, 5344559220462660), (17, 561443395877, 4793803896595920),
  (15, 581110284451, 4307189928903080), (15, 496237667003, 1999997290154599),
  (18, 55618686515, 1476523904326980), (14, 348144272414, 2978666025688100),
  (15, 584132627836, 1022853801739600), (16, 105720065324, 2673594526221320),
  (14, 608462030302, 3537188726597640), (14, 284532871890, 57434479833480),
  (15, 534517715140, 1019803307502600), (13, 45004137509, 2045286941222180)]

/-- `vsop87d_dict.py` 8352-8533. -/
def venusR1 : List (ℕ × ℕ × ℕ) := List.flatten [
  venusR1_0, venusR1_1]

/-- `vsop87d_dict.py` 8535-8597. -/
def venusR2_0 : List (ℕ × ℕ × ℕ) := [
  (1406587, 506366395190, 1021328554621100), (15529, 547321687981, 2042657109242200),
  (13059, 0, 0), (1099, 278883988292, 943776293488700),
  (488, 627806914496, 157734354244780), (361, 611914188253, 1040473381232260),
  (310, 138984998403, 550755323866740), (389, 195017779915, 1101510647733480),
  (372, 233222828423, 77552261132400), (207, 563406721595, 1023958386601080),
  (168, 110765197296, 1336797263110660), (175, 616674652950, 3063985663863300),
  (168, 364495311632, 708489678111520), (120, 585815843789, 915390361602180),
  (160, 221564938463, 315468708489560), (118, 262358866565, 863594200376320),
  (112, 236235956804, 1059618207843420), (92, 72664449269, 1256615169998280),
  (67, 376089669118, 1883749819713819), (65, 247983709990, 1179062908865880),
  (48, 426620187144, 235286615377180), (48, 550898189550, 19144826611160),
  (48, 254730918293, 1729818232732620), (46, 340293459332, 1414349524243060),
  (41, 183997113019, 1132266409830440), (37, 617871126027, 110937855209340),
  (39, 477190210316, 1807370493865020), (35, 310133256432, 470573230754360),
  (46, 330090415967, 628307584999140), (34, 391721765773, 1002183728009940),
  (34, 324663787383, 2200391463486980), (42, 339360926939, 1494531617355440),
  (44, 442979374073, 786041939243920), (34, 216381407025, 1649636139620240),
  (31, 45714618479, 2629831979980), (35, 362868651241, 80182093112380),
  (32, 184138997078, 38289653222320), (25, 332908650295, 1830780723204360),
  (26, 364313769818, 2908881141598500), (29, 382967178810, 1018698722641120),
  (22, 317741520378, 2852109277825460), (21, 252643834111, 52969096509460),
  (25, 571401244457, 2120209370374600), (21, 377813434325, 2122839202354580),
  (19, 524505118517, 1989688012732740), (18, 462463651925, 1965104848109800),
  (16, 335893297896, 2828699048486120), (15, 505571633205, 3301902111220460),
  (14, 283786355803, 1978667380610799), (14, 179922718553, 983038901398780),
  (14, 314801263138, 1936718916223280), (14, 357896195191, 1098880815753500),
  (13, 306303088617, 1074297651130560), (13, 543981998532, 2515860171976540),
  (15, 483166312889, 1887552586977400), (12, 254141086214, 706412138562280),
  (12, 445255110769, 1572083878487840), (10, 187933121728, 2435678078864160),
  (11, 258708635685, 910390699411760), (10, 217901309900, 372350895892300),
  (8, 363520673832, 105938193018920), (8, 467523115598, 2593412433108940),
  (9, 597856553283, 968359458111640)]

/-- `vsop87d_dict.py` 8534-8598. -/
def venusR2 : List (ℕ × ℕ × ℕ) := venusR2_0

/-- `vsop87d_dict.py` 8600-8606. -/
def venusR3_0 : List (ℕ × ℕ × ℕ) := [
  (49582, 322263554520, 1021328554621100), (831, 321219077104, 2042657109242200),
  (112, 314159265359, 0), (13, 377448689585, 3063985663863300),
  (9, 419802043629, 1023958386601080), (6, 20714935358, 1018698722641120),
  (5, 68781956122, 863594200376320)]

/-- `vsop87d_dict.py` 8599-8607. -/
def venusR3 : List (ℕ × ℕ × ℕ) := venusR3_0

/-- `vsop87d_dict.py` 8609-8611. -/
def venusR4_0 : List (ℕ × ℕ × ℕ) := [
  (573, 92229697820, 1021328554621100), (40, 95468912157, 2042657109242200),
  (6, 314159265359, 0)]

/-- `vsop87d_dict.py` 8608-8612. -/
def venusR4 : List (ℕ × ℕ × ℕ) := venusR4_0

/-- `vsop87d_dict.py` 8614-8615. -/
def venusR5_0 : List (ℕ × ℕ × ℕ) := [
  (45, 30032866722, 1021328554621100), (2, 529627718483, 2042657109242200)]

/-- `vsop87d_dict.py` 8613-8616. -/
def venusR5 : List (ℕ × ℕ × ℕ) := venusR5_0

/-- `vsop87d_dict.py` 8019-8617 `_planets[("Venus", "R")]`. -/
def venusR : List (List (ℕ × ℕ × ℕ)) :=
  [venusR0, venusR1, venusR2, venusR3, venusR4, venusR5]

end Verif.Data

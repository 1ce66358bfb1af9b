import Mathlib.Data.Int.Notation

/-! Generated by tools/gen_deltat.py from dynamical.py; do not edit. -/

namespace Verif.Data

/-- `dynamical.py` 49-148: part of `_tbl`. -/
def deltaTRaw0 : List (ℤ × ℤ) := [
  (9251010, 1210000), (9253934, 1120000), (9256854, 1030000), (9259778, 950000), (9262698, 880000),
  (9265622, 820000), (9268542, 770000), (9271466, 720000), (9274386, 680000), (9277310, 630000),
  (9280230, 600000), (9283154, 560000), (9286074, 530000), (9288998, 510000), (9291918, 480000),
  (9294842, 460000), (9297762, 440000), (9300686, 420000), (9303606, 400000), (9305070, 440000),
  (9305800, 430000), (9306530, 430000), (9307260, 410000), (9307990, 400000), (9308720, 390000),
  (9309450, 380000), (9310182, 370000), (9310914, 370000), (9311644, 360000), (9312374, 360000),
  (9313104, 360000), (9313834, 370000), (9314564, 370000), (9315294, 380000), (9316026, 370000),
  (9316758, 360000), (9317488, 360000), (9318218, 350000), (9318948, 350000), (9319678, 340000),
  (9320408, 330000), (9321138, 330000), (9321870, 320000), (9322602, 320000), (9323332, 310000),
  (9324062, 310000), (9324792, 300000), (9325522, 300000), (9326252, 290000), (9326982, 290000),
  (9327714, 290000), (9328446, 290000), (9329176, 290000), (9329906, 280000), (9330636, 280000),
  (9331366, 270000), (9332096, 270000), (9332826, 260000), (9333558, 260000), (9334290, 250000),
  (9335020, 250000), (9335750, 250000), (9336480, 260000), (9337210, 260000), (9337940, 260000),
  (9338670, 260000), (9339402, 250000), (9340134, 250000), (9340864, 250000), (9341594, 240000),
  (9342324, 240000), (9343054, 240000), (9343784, 240000), (9344514, 240000), (9345246, 240000),
  (9345978, 240000), (9346708, 240000), (9347438, 240000), (9348168, 240000), (9348898, 230000),
  (9349628, 230000), (9350358, 230000), (9351090, 230000), (9351822, 220000), (9352552, 220000),
  (9353282, 220000), (9354012, 220000), (9354742, 220000), (9355472, 210000), (9356202, 210000),
  (9356934, 210000), (9357666, 210000), (9358396, 210000), (9359126, 210000), (9359856, 210000),
  (9360586, 210000), (9361316, 200000), (9362046, 200000), (9362778, 200000), (9363510, 200000)]

/-- `dynamical.py` 149-248: part of `_tbl`. -/
def deltaTRaw1 : List (ℤ × ℤ) := [
  (9364240, 200000), (9364970, 200000), (9365700, 200000), (9366430, 200000), (9367160, 200000),
  (9367890, 210000), (9368620, 210000), (9369350, 210000), (9370080, 200000), (9370810, 200000),
  (9371540, 200000), (9372270, 200000), (9373000, 200000), (9373730, 190000), (9374462, 190000),
  (9375194, 190000), (9375924, 190000), (9376654, 190000), (9377384, 200000), (9378114, 200000),
  (9378844, 200000), (9379574, 200000), (9380306, 190000), (9381038, 200000), (9381768, 200000),
  (9382498, 200000), (9383228, 200000), (9383958, 200000), (9384688, 200000), (9385418, 210000),
  (9386150, 210000), (9386882, 210000), (9387612, 210000), (9388342, 210000), (9389072, 210000),
  (9389802, 210000), (9390532, 210000), (9391262, 210000), (9391994, 210000), (9392726, 210000),
  (9393456, 210000), (9394186, 210000), (9394916, 210000), (9395646, 210000), (9396376, 210000),
  (9397106, 211000), (9397838, 210000), (9398570, 210000), (9399300, 210000), (9400030, 209000),
  (9400760, 208000), (9401490, 207000), (9402220, 206000), (9402950, 204000), (9403682, 202000),
  (9404414, 200000), (9405144, 197000), (9405874, 194000), (9406604, 191000), (9407334, 187000),
  (9408064, 183000), (9408794, 178000), (9409526, 174000), (9410258, 170000), (9410988, 168000),
  (9411718, 166000), (9412448, 164000), (9413178, 161000), (9413908, 159000), (9414638, 157000),
  (9415370, 155000), (9416102, 153000), (9416832, 150000), (9417562, 147000), (9418292, 145000),
  (9419022, 143000), (9419752, 142000), (9420482, 141000), (9421214, 141000), (9421946, 141000),
  (9422676, 139000), (9423406, 137000), (9424136, 136000), (9424866, 135000), (9425596, 135000),
  (9426326, 135000), (9427058, 135000), (9427790, 134000), (9428520, 134000), (9429250, 134000),
  (9429980, 134000), (9430710, 133000), (9431440, 133000), (9432170, 132000), (9432902, 132000),
  (9433634, 132000), (9434364, 131000), (9435094, 131000), (9435824, 131000), (9436554, 130000)]

/-- `dynamical.py` 249-348: part of `_tbl`. -/
def deltaTRaw2 : List (ℤ × ℤ) := [
  (9437284, 132000), (9438014, 133000), (9438746, 134000), (9439478, 135000), (9440208, 136000),
  (9440938, 137000), (9441668, 138000), (9442398, 139000), (9443128, 140000), (9443858, 140000),
  (9444590, 141000), (9445322, 141000), (9446052, 141000), (9446782, 141000), (9447512, 142000),
  (9448242, 143000), (9448972, 144000), (9449702, 144000), (9450434, 145000), (9451166, 146000),
  (9451896, 146000), (9452626, 147000), (9453356, 147000), (9454086, 147000), (9454816, 148000),
  (9455546, 148000), (9456278, 149000), (9457010, 149000), (9457740, 150000), (9458470, 150000),
  (9459200, 151000), (9459930, 152000), (9460660, 153000), (9461390, 154000), (9462122, 155000),
  (9462854, 156000), (9463584, 156000), (9464314, 156000), (9465044, 158000), (9465774, 159000),
  (9466504, 159000), (9467234, 159000), (9467966, 158000), (9468698, 157000), (9469428, 158000),
  (9470158, 157000), (9470888, 157000), (9471618, 157000), (9472348, 158000), (9473078, 159000),
  (9473810, 161000), (9474542, 161000), (9475272, 160000), (9476002, 159000), (9476732, 159000),
  (9477462, 157000), (9478192, 154000), (9478922, 153000), (9479654, 154000), (9480386, 155000),
  (9481116, 156000), (9481846, 156000), (9482576, 156000), (9483306, 156000), (9484036, 156000),
  (9484766, 156000), (9485498, 156000), (9486230, 155000), (9486960, 155000), (9487690, 154000),
  (9488420, 153000), (9489150, 152000), (9489880, 151000), (9490610, 149000), (9491342, 148000),
  (9492074, 146000), (9492804, 144000), (9493534, 143000), (9494264, 142000), (9494994, 141000),
  (9495724, 142000), (9496454, 142000), (9497186, 139000), (9497918, 137000), (9498648, 135000),
  (9499378, 133000), (9500108, 131000), (9500838, 130000), (9501568, 132000), (9502298, 132000),
  (9503030, 131000), (9503762, 131000), (9504492, 132000), (9505222, 133000), (9505952, 135000),
  (9506682, 135000), (9507412, 134000), (9508142, 132000), (9508874, 132000), (9509606, 131000)]

/-- `dynamical.py` 349-448: part of `_tbl`. -/
def deltaTRaw3 : List (ℤ × ℤ) := [
  (9510336, 131000), (9511066, 130000), (9511796, 128000), (9512526, 126000), (9513256, 127000),
  (9513986, 126000), (9514716, 123000), (9515446, 120000), (9516176, 119000), (9516906, 118000),
  (9517636, 116000), (9518366, 114000), (9519096, 112000), (9519826, 111000), (9520558, 111000),
  (9521290, 111000), (9522020, 111000), (9522750, 111000), (9523480, 112000), (9524210, 111000),
  (9524940, 111000), (9525670, 112000), (9526402, 114000), (9527134, 115000), (9527864, 113000),
  (9528594, 112000), (9529324, 114000), (9530054, 117000), (9530784, 119000), (9531514, 119000),
  (9532246, 119000), (9532978, 118000), (9533708, 117000), (9534438, 118000), (9535168, 118000),
  (9535898, 118000), (9536628, 117000), (9537358, 116000), (9538090, 116000), (9538822, 115000),
  (9539552, 115000), (9540282, 114000), (9541012, 114000), (9541742, 113000), (9542472, 113000),
  (9543202, 111300), (9543934, 111600), (9544666, 109400), (9545396, 107200), (9546126, 102900),
  (9546856, 100400), (9547586, 99400), (9548316, 99100), (9549046, 98800), (9549778, 98600),
  (9550510, 97200), (9551240, 96700), (9551970, 96600), (9552700, 96400), (9553430, 95100),
  (9554160, 94000), (9554890, 92100), (9555622, 90000), (9556354, 86000), (9557084, 82900),
  (9557814, 79500), (9558544, 77300), (9559274, 75900), (9560004, 74900), (9560734, 73600),
  (9561466, 72600), (9562198, 71000), (9562928, 70000), (9563658, 68900), (9564388, 68200),
  (9565118, 67300), (9565848, 66400), (9566578, 63900), (9567310, 62800), (9568042, 62500),
  (9568772, 62700), (9569502, 62500), (9570232, 62700), (9570962, 62200), (9571692, 62400),
  (9572422, 62200), (9573154, 62700), (9573886, 63000), (9574616, 63600), (9575346, 63500),
  (9576076, 63700), (9576806, 63200), (9577536, 63300), (9578266, 63300), (9578998, 63700),
  (9579730, 63700), (9580460, 64100), (9581190, 64000), (9581920, 64400), (9582650, 64600)]

/-- `dynamical.py` 449-548: part of `_tbl`. -/
def deltaTRaw4 : List (ℤ × ℤ) := [
  (9583380, 65100), (9584110, 64800), (9584842, 65100), (9585574, 65300), (9586304, 65800),
  (9587034, 65500), (9587764, 66100), (9588494, 66900), (9589224, 68000), (9589954, 68400),
  (9590686, 69400), (9591418, 70300), (9592148, 71300), (9592878, 71500), (9593608, 72200),
  (9594338, 72600), (9595068, 73000), (9595798, 72300), (9596530, 72200), (9597262, 72100),
  (9597992, 72000), (9598722, 69900), (9599452, 69800), (9600182, 71900), (9600912, 73600),
  (9601642, 73500), (9602374, 73900), (9603106, 74100), (9603836, 74500), (9604566, 73600),
  (9605296, 71800), (9606026, 69500), (9606756, 67200), (9607486, 64500), (9608218, 62400),
  (9608950, 59200), (9609680, 55900), (9610410, 51500), (9611140, 46700), (9611870, 41100),
  (9612600, 35200), (9613330, 29400), (9614062, 24700), (9614794, 19700), (9615524, 15200),
  (9616254, 10400), (9616984, 6000), (9617714, 1100), (9618444, -3400), (9619174, -8200),
  (9619906, -12500), (9620638, -17000), (9621368, -20800), (9622098, -24800), (9622828, -28200),
  (9623558, -31900), (9624288, -35000), (9625018, -38400), (9625750, -41400), (9626482, -44300),
  (9627212, -45900), (9627942, -47900), (9628672, -49200), (9629402, -50900), (9630132, -52400),
  (9630862, -53600), (9631594, -53400), (9632326, -53700), (9633056, -53200), (9633786, -53400),
  (9634516, -53300), (9635246, -54000), (9635976, -54700), (9636706, -55800), (9637438, -56600),
  (9638170, -57400), (9638900, -56800), (9639630, -56900), (9640360, -56500), (9641090, -56700),
  (9641820, -56800), (9642550, -57300), (9643282, -57200), (9644014, -57800), (9644744, -57900),
  (9645474, -58600), (9646204, -58900), (9646934, -60100), (9647664, -61300), (9648394, -62800),
  (9649126, -64100), (9649858, -65300), (9650588, -64900), (9651318, -65000), (9652048, -64500),
  (9652778, -64100), (9653508, -62600), (9654238, -61100), (9654970, -59000), (9655702, -56300)]

/-- `dynamical.py` 549-648: part of `_tbl`. -/
def deltaTRaw5 : List (ℤ × ℤ) := [
  (9656432, -51300), (9657162, -46800), (9657892, -41900), (9658622, -37200), (9659352, -32100),
  (9660082, -27000), (9660812, -20900), (9661542, -14800), (9662272, -7500), (9663002, -800),
  (9663732, 6200), (9664462, 12600), (9665192, 19500), (9665922, 25900), (9666654, 32800),
  (9667386, 39200), (9668116, 46100), (9668846, 52000), (9669576, 57300), (9670306, 62900),
  (9671036, 70000), (9671766, 76800), (9672498, 84500), (9673230, 91300), (9673960, 97800),
  (9674690, 103800), (9675420, 109900), (9676150, 116400), (9676880, 124700), (9677610, 132300),
  (9678342, 140000), (9679074, 146900), (9679804, 153800), (9680534, 160000), (9681264, 166400),
  (9681994, 171900), (9682724, 177200), (9683454, 181900), (9684186, 186700), (9684918, 191300),
  (9685648, 196900), (9686378, 201400), (9687108, 205400), (9687838, 208600), (9688568, 211400),
  (9689298, 214100), (9690030, 217800), (9690762, 220600), (9691492, 223000), (9692222, 225100),
  (9692952, 227900), (9693682, 230100), (9694412, 232900), (9695142, 234600), (9695874, 235500),
  (9696606, 236300), (9697336, 238000), (9698066, 239500), (9698796, 242500), (9699526, 243900),
  (9700256, 244200), (9700986, 243400), (9701718, 242200), (9702450, 241000), (9703180, 240800),
  (9703910, 240200), (9704640, 240400), (9705370, 239800), (9706100, 239100), (9706830, 238900),
  (9707562, 239500), (9708294, 239300), (9709024, 239200), (9709754, 238800), (9710484, 239400),
  (9711214, 239100), (9711944, 238200), (9712674, 237600), (9713406, 238700), (9714138, 239100),
  (9714868, 239500), (9715598, 239600), (9716328, 240000), (9717058, 240400), (9717788, 242000),
  (9718518, 243500), (9719250, 246100), (9719982, 248200), (9720712, 250900), (9721442, 253000),
  (9722172, 255600), (9722902, 257700), (9723632, 260500), (9724362, 262700), (9725094, 265400),
  (9725826, 267600), (9726556, 270400), (9727286, 272700), (9728016, 275500), (9728746, 277700)]

/-- `dynamical.py` 649-748: part of `_tbl`. -/
def deltaTRaw6 : List (ℤ × ℤ) := [
  (9729476, 280300), (9730206, 282500), (9730938, 285000), (9731670, 287000), (9732400, 289500),
  (9733130, 291500), (9733860, 293800), (9734590, 295700), (9735320, 298000), (9736050, 299700),
  (9736782, 301900), (9737514, 303600), (9738244, 305700), (9738974, 307200), (9739704, 309300),
  (9740434, 310700), (9741164, 312400), (9741894, 313490), (9742626, 315160), (9743358, 316770),
  (9744088, 319230), (9744818, 321660), (9745548, 324490), (9746278, 326710), (9747008, 329190),
  (9747738, 331500), (9748470, 333970), (9749202, 335840), (9749932, 338040), (9750662, 339920),
  (9751392, 342400), (9752122, 344660), (9752852, 347310), (9753582, 350300), (9754314, 354000),
  (9755046, 357380), (9755776, 361470), (9756506, 365460), (9757236, 369950), (9757966, 374290),
  (9758696, 378790), (9759426, 382910), (9760158, 387530), (9760890, 392040), (9761620, 397070),
  (9762350, 401820), (9763080, 407060), (9763810, 411700), (9764540, 416860), (9765270, 422270),
  (9766002, 428250), (9766734, 433730), (9766858, 434724), (9766970, 435648), (9767094, 436737),
  (9767214, 437782), (9767338, 438763), (9767458, 439562), (9767582, 440315), (9767706, 441132),
  (9767826, 441982), (9767950, 442952), (9768070, 443936), (9768194, 444841), (9768318, 445646),
  (9768430, 446425), (9768554, 447386), (9768674, 448370), (9768798, 449302), (9768918, 449986),
  (9769042, 450584), (9769166, 451284), (9769286, 452064), (9769410, 452980), (9769530, 453897),
  (9769654, 454761), (9769778, 455633), (9769890, 456450), (9770014, 457375), (9770134, 458284),
  (9770258, 459133), (9770378, 459820), (9770502, 460408), (9770626, 461067), (9770746, 461825),
  (9770870, 462789), (9770990, 463713), (9771114, 464567), (9771238, 465445), (9771354, 466311),
  (9771478, 467302), (9771598, 468284), (9771722, 469247), (9771842, 469970), (9771966, 470709),
  (9772090, 471451), (9772210, 472362), (9772334, 473413), (9772454, 474319), (9772578, 475214)]

/-- `dynamical.py` 749-848: part of `_tbl`. -/
def deltaTRaw7 : List (ℤ × ℤ) := [
  (9772702, 476049), (9772814, 476837), (9772938, 477781), (9773058, 478771), (9773182, 479687),
  (9773302, 480348), (9773426, 480942), (9773550, 481608), (9773670, 482460), (9773794, 483439),
  (9773914, 484355), (9774038, 485344), (9774162, 486325), (9774274, 487294), (9774398, 488365),
  (9774518, 489353), (9774642, 490319), (9774762, 491013), (9774886, 491591), (9775010, 492286),
  (9775130, 493070), (9775254, 494018), (9775374, 494945), (9775498, 495862), (9775622, 496805),
  (9775734, 497602), (9775858, 498556), (9775978, 499489), (9776102, 500347), (9776222, 501019),
  (9776346, 501622), (9776470, 502260), (9776590, 502968), (9776714, 503831), (9776834, 504599),
  (9776958, 505387), (9777082, 506161), (9777198, 506866), (9777322, 507658), (9777442, 508454),
  (9777566, 509187), (9777686, 509761), (9777810, 510278), (9777934, 510843), (9778054, 511538),
  (9778178, 512319), (9778298, 513063), (9778422, 513808), (9778546, 514526), (9778658, 515160),
  (9778782, 515985), (9778902, 516809), (9779026, 517573), (9779146, 518133), (9779270, 518532),
  (9779394, 519014), (9779514, 519603), (9779638, 520328), (9779758, 520985), (9779882, 521668),
  (9780006, 522316), (9780118, 522938), (9780242, 523680), (9780362, 524465), (9780486, 525180),
  (9780606, 525752), (9780730, 526178), (9780854, 526668), (9780974, 527340), (9781098, 528056),
  (9781218, 528792), (9781342, 529565), (9781466, 530445), (9781578, 531268), (9781702, 532197),
  (9781822, 533024), (9781946, 533747), (9782066, 534335), (9782190, 534778), (9782314, 535300),
  (9782434, 535845), (9782558, 536523), (9782678, 537256), (9782802, 537882), (9782926, 538367),
  (9783042, 538830), (9783166, 539443), (9783286, 540042), (9783410, 540536), (9783530, 540856),
  (9783654, 541084), (9783778, 541463), (9783898, 541914), (9784022, 542452), (9784142, 542958),
  (9784266, 543427), (9784390, 543911), (9784502, 544320), (9784626, 544898), (9784746, 545456)]

/-- `dynamical.py` 849-948: part of `_tbl`. -/
def deltaTRaw8 : List (ℤ × ℤ) := [
  (9784870, 545977), (9784990, 546355), (9785114, 546532), (9785238, 546776), (9785358, 547174),
  (9785482, 547741), (9785602, 548253), (9785726, 548713), (9785850, 549161), (9785962, 549581),
  (9786086, 549997), (9786206, 550476), (9786330, 550912), (9786450, 551132), (9786574, 551328),
  (9786698, 551532), (9786818, 551898), (9786942, 552416), (9787062, 552838), (9787186, 553222),
  (9787310, 553613), (9787422, 554063), (9787546, 554629), (9787666, 555111), (9787790, 555524),
  (9787910, 555812), (9788034, 556004), (9788158, 556262), (9788278, 556656), (9788402, 557168),
  (9788522, 557698), (9788646, 558197), (9788770, 558615), (9788886, 559130), (9789010, 559663),
  (9789130, 560220), (9789254, 560700), (9789374, 560939), (9789498, 561105), (9789622, 561314),
  (9789742, 561611), (9789866, 562068), (9789986, 562583), (9790110, 563000), (9790234, 563399),
  (9790346, 563790), (9790470, 564283), (9790590, 564804), (9790714, 565352), (9790834, 565697),
  (9790958, 565983), (9791082, 566328), (9791202, 566739), (9791326, 567332), (9791446, 567972),
  (9791570, 568553), (9791694, 569111), (9791806, 569755), (9791930, 570471), (9792050, 571136),
  (9792174, 571738), (9792294, 572226), (9792418, 572597), (9792542, 573073), (9792662, 573643),
  (9792786, 574334), (9792906, 575016), (9793030, 575653), (9793154, 576333), (9793266, 576973),
  (9793390, 577711), (9793510, 578407), (9793634, 579058), (9793754, 579576), (9793878, 579975),
  (9794002, 580426), (9794122, 581043), (9794246, 581679), (9794366, 582389), (9794490, 583092),
  (9794614, 583833), (9794730, 584537), (9794854, 585401), (9794974, 586228), (9795098, 586917),
  (9795218, 587410), (9795342, 587836), (9795466, 588406), (9795586, 588986), (9795710, 589714),
  (9795830, 590438), (9795954, 591218), (9796078, 592003), (9796190, 592747), (9796314, 593574),
  (9796434, 594434), (9796558, 595242), (9796678, 595850), (9796802, 596344), (9796926, 596928)]

/-- `dynamical.py` 949-1048: part of `_tbl`. -/
def deltaTRaw9 : List (ℤ × ℤ) := [
  (9797046, 597588), (9797170, 598386), (9797290, 599111), (9797414, 599845), (9797538, 600564),
  (9797650, 601231), (9797774, 602042), (9797894, 602804), (9798018, 603530), (9798138, 604012),
  (9798262, 604440), (9798386, 604900), (9798506, 605578), (9798630, 606324), (9798750, 607059),
  (9798874, 607853), (9798998, 608664), (9799110, 609387), (9799234, 610277), (9799354, 611103),
  (9799478, 611870), (9799598, 612454), (9799722, 612881), (9799846, 613378), (9799966, 614036),
  (9800090, 614760), (9800210, 615525), (9800334, 616287), (9800458, 616846), (9800574, 617433),
  (9800698, 618132), (9800818, 618823), (9800942, 619497), (9801062, 619969), (9801186, 620343),
  (9801310, 620714), (9801430, 621202), (9801554, 621810), (9801674, 622382), (9801798, 622950),
  (9801922, 623506), (9802034, 623995), (9802158, 624754), (9802278, 625463), (9802402, 626136),
  (9802522, 626571), (9802646, 626942), (9802770, 627383), (9802890, 627926), (9803014, 628567),
  (9803134, 629146), (9803258, 629659), (9803382, 630217), (9803494, 630807), (9803618, 631462),
  (9803738, 632053), (9803862, 632599), (9803982, 632844), (9804106, 632961), (9804230, 633126),
  (9804350, 633422), (9804474, 633871), (9804594, 634339), (9804718, 634673), (9804842, 634979),
  (9804954, 635319), (9805078, 635679), (9805198, 636104), (9805322, 636444), (9805442, 636642),
  (9805566, 636739), (9805690, 636926), (9805810, 637147), (9805934, 637518), (9806054, 637927),
  (9806178, 638285), (9806302, 638557), (9806418, 638804), (9806542, 639075), (9806662, 639393),
  (9806786, 639691), (9806906, 639799), (9807030, 639833), (9807154, 639938), (9807274, 640093),
  (9807398, 640400), (9807518, 640670), (9807642, 640908), (9807766, 641068), (9807878, 641282),
  (9808002, 641584), (9808122, 641833), (9808246, 642094), (9808366, 642117), (9808490, 642073),
  (9808614, 642116), (9808734, 642223), (9808858, 642500), (9808978, 642761), (9809102, 642998)]

/-- `dynamical.py` 1049-1148: part of `_tbl`. -/
def deltaTRaw10 : List (ℤ × ℤ) := [
  (9809226, 643192), (9809338, 643450), (9809462, 643735), (9809582, 643943), (9809706, 644151),
  (9809826, 644132), (9809950, 644118), (9810074, 644097), (9810194, 644168), (9810318, 644329),
  (9810438, 644511), (9810562, 644734), (9810686, 644893), (9810798, 645053), (9810922, 645269),
  (9811042, 645471), (9811166, 645597), (9811286, 645512), (9811410, 645371), (9811534, 645359),
  (9811654, 645415), (9811778, 645544), (9811898, 645654), (9812022, 645736), (9812146, 645891),
  (9812262, 646015), (9812386, 646176), (9812506, 646374), (9812630, 646549), (9812750, 646530),
  (9812874, 646379), (9812998, 646372), (9813118, 646400), (9813242, 646543), (9813362, 646723),
  (9813486, 646876), (9813610, 647052), (9813722, 647313), (9813846, 647575), (9813966, 647811),
  (9814090, 648001), (9814210, 647995), (9814334, 647876), (9814458, 647831), (9814578, 647921),
  (9814702, 648096), (9814822, 648311), (9814946, 648452), (9815070, 648597), (9815182, 648850),
  (9815306, 649175), (9815426, 649480), (9815550, 649794), (9815670, 649895), (9815794, 650028),
  (9815918, 650138), (9816038, 650371), (9816162, 650773), (9816282, 651122), (9816406, 651464),
  (9816530, 651833), (9816642, 652145), (9816766, 652494), (9816886, 652921), (9817010, 653279),
  (9817130, 653413), (9817254, 653452), (9817378, 653496), (9817498, 653711), (9817622, 653972),
  (9817742, 654296), (9817866, 654573), (9817990, 654868), (9818106, 655152), (9818230, 655450),
  (9818350, 655781), (9818474, 656127), (9818594, 656288), (9818718, 656370), (9818842, 656493),
  (9818962, 656760), (9819086, 657097), (9819206, 657461), (9819330, 657768), (9819454, 658025),
  (9819566, 658237), (9819690, 658595), (9819810, 658973), (9819934, 659323), (9820054, 659509),
  (9820178, 659534), (9820302, 659628), (9820422, 659839), (9820546, 660147), (9820666, 660420),
  (9820790, 660699), (9820914, 660961), (9821026, 661310), (9821150, 661683), (9821270, 662072)]

/-- `dynamical.py` 1149-1193: part of `_tbl`. -/
def deltaTRaw11 : List (ℤ × ℤ) := [
  (9821394, 662356), (9821514, 662409), (9821638, 662335), (9821762, 662349), (9821882, 662441),
  (9822006, 662751), (9822126, 663054), (9822250, 663246), (9822374, 663406), (9822486, 663624),
  (9822610, 663957), (9822730, 664289), (9822854, 664619), (9822974, 664749), (9823098, 664751),
  (9823222, 664829), (9823342, 665056), (9823466, 665383), (9823586, 665706), (9823710, 666030),
  (9823834, 666340), (9823950, 666569), (9824074, 666925), (9824194, 667289), (9824318, 667579),
  (9824438, 667708), (9824562, 667740), (9824686, 667846), (9824806, 668103), (9824930, 668400),
  (9825050, 668779), (9825174, 671000), (9825539, 672000), (9825904, 673000), (9826269, 675000),
  (9826634, 676000), (9826999, 677000), (9827364, 678000), (9827729, 679000)]

/-- `dynamical.py` 48-1197 `_tbl`: Julian Day times 4 and seconds times 10000. -/
def deltaTRaw : List (ℤ × ℤ) := List.flatten [
  deltaTRaw0, deltaTRaw1, deltaTRaw2, deltaTRaw3, deltaTRaw4, deltaTRaw5, deltaTRaw6, deltaTRaw7, deltaTRaw8, deltaTRaw9, deltaTRaw10, deltaTRaw11]

end Verif.Data

import Verif.Lemmas.PointMoon
import Verif.Lemmas.SunPublished

/-!
# The Moon about 2005 January 12

Kernel evaluations of the series of the Moon and the nutation at three daily times and between two of them.
-/

namespace Verif
open Real

set_option exponentiation.threshold 500
set_option maxRecDepth 100000

/-- 2453381.5 -/
def moonU : MoonPt := ⟨24416768569284306, 22686160935935106, 2167584026244615, 24128822971515716, 24388973801889436, 27794962594620, 126379450746064, 24150800296646133, 24511831871759069, 999873475227, 5028062971⟩

theorem moonU_ok : moonU.OK (3673/73050) := by
  refine ⟨pt_deg (x := 9770062024662502996374341509802255389/400137389062736204284785000000000) ?_ ?_, pt_deg (x := 13290351212699976030053119320480573569/585835181643621624854625000000000) ?_ ?_, pt_deg (x := 206930919622739456066965687/95466158228362500000000) ?_ ?_, pt_deg (x := 234851872295991645112382480322900071/9733250253161387638350000000000) ?_ ?_, pt_deg (x := 2114090076961374720647997549523935301/86682207055288003984125000000000) ?_ ?_, pt_deg (x := 4485295363765411060892351492752477/161370800500143478445370000000000) ?_ ?_, pt_deg (x := 9232018877/73050000) ?_ ?_, pt_deg (x := 176421596167/7305000) ?_ ?_, pt_deg (x := 223823664779/9131250) ?_ ?_, ?_, ?_, ?_, ?_⟩
  · simp only [kL1, polyR, horner, dToR]; ring
  · norm_num [moonU, abs_le]
  · simp only [kD, polyR, horner, dToR]; ring
  · norm_num [moonU, abs_le]
  · simp only [kM, polyR, horner, dToR]; ring
  · norm_num [moonU, abs_le]
  · simp only [kM1, polyR, horner, dToR]; ring
  · norm_num [moonU, abs_le]
  · simp only [kF, polyR, horner, dToR]; ring
  · norm_num [moonU, abs_le]
  · simp only [ko, polyR, horner, dToR]; ring
  · norm_num [moonU, abs_le]
  · simp only [kA1, polyR, horner, dToR]; ring
  · norm_num [moonU, abs_le]
  · simp only [kA2, polyR, horner, dToR]; ring
  · norm_num [moonU, abs_le]
  · simp only [kA3, polyR, horner, dToR]; ring
  · norm_num [moonU, abs_le]
  · norm_num [moonU, abs_le]
  · norm_num [moonU, abs_le]
  · norm_num [moonU, abs_le]
  · norm_num [moonU, abs_le]

theorem moonU_lon : nearN (1230126061000000000) 10000000000 ((moonU.lonW ++ moonU.lonX).map sinRow) = true := by decide +kernel

theorem moonU_lat : nearN (-4999381588000000000) 10000000000 ((moonU.latW ++ moonU.latX).map sinRow) = true := by decide +kernel

theorem moonU_psi : nearN (-66924640000000000) 10000000000 (moonU.psiW.map sinRow) = true := by decide +kernel

theorem moonU_eps : nearN (75855877000000000) 10000000000 (moonU.epsW.map cosRow) = true := by decide +kernel

theorem moonU_sl : nearN (-882988744509) 1000 [sinRow (1000000000000, 24417994977309750)] = true := by decide +kernel

theorem moonU_sb : nearN (-87144990489) 1000 [sinRow (1000000000000, -4999381588000)] = true := by decide +kernel

theorem moonU_cb : nearN (996195638734) 1000 [cosRow (1000000000000, -4999381588000)] = true := by decide +kernel

theorem moonU_se : nearN (397800426811) 1000 [sinRow (1000000000000, 23440744360766)] = true := by decide +kernel

theorem moonU_ce : nearN (917471972558) 1000 [cosRow (1000000000000, 23440744360766)] = true := by decide +kernel

theorem moonU_d1 : nearN (-429870138672) 1000 [sinRow (1000000000000, -25459319100000)] = true := by decide +kernel

theorem moonU_d2 : nearN (-429870044121) 1000 [sinRow (1000000000000, -25459313100000)] = true := by decide +kernel

/-- 2453382.5 -/
def moonV : MoonPt := ⟨24429944965754543, 22698351685044322, 2168569626525941, 24141887964489977, 24402203152119573, 27742008834721, 126383060574949, 24163921837782341, 24525008229979466, 999873406323, 5030800821⟩

theorem moonV_ok : moonV.OK (49/974) := by
  refine ⟨pt_deg (x := 4827325626441165132979272032286239/197598710648264792239400000000) ?_ ?_, pt_deg (x := 157599916828666612525431193740439/6943231782442922961240000000) ?_ ?_, pt_deg (x := 2453629761127662091347/1131450764188000000) ?_ ?_, pt_deg (x := 221026725119027325819942694563/9155320637894309360000000) ?_ ?_, pt_deg (x := 1193784452197378700779681165619/48921175057658132760000000) ?_ ?_, pt_deg (x := 442148165248490655865829690697/15937856839520343550160000000) ?_ ?_, pt_deg (x := 123097101/974000) ?_ ?_, pt_deg (x := 2353565987/97400) ?_ ?_, pt_deg (x := 1492959876/60875) ?_ ?_, ?_, ?_, ?_, ?_⟩
  · simp only [kL1, polyR, horner, dToR]; ring
  · norm_num [moonV, abs_le]
  · simp only [kD, polyR, horner, dToR]; ring
  · norm_num [moonV, abs_le]
  · simp only [kM, polyR, horner, dToR]; ring
  · norm_num [moonV, abs_le]
  · simp only [kM1, polyR, horner, dToR]; ring
  · norm_num [moonV, abs_le]
  · simp only [kF, polyR, horner, dToR]; ring
  · norm_num [moonV, abs_le]
  · simp only [ko, polyR, horner, dToR]; ring
  · norm_num [moonV, abs_le]
  · simp only [kA1, polyR, horner, dToR]; ring
  · norm_num [moonV, abs_le]
  · simp only [kA2, polyR, horner, dToR]; ring
  · norm_num [moonV, abs_le]
  · simp only [kA3, polyR, horner, dToR]; ring
  · norm_num [moonV, abs_le]
  · norm_num [moonV, abs_le]
  · norm_num [moonV, abs_le]
  · norm_num [moonV, abs_le]
  · norm_num [moonV, abs_le]

theorem moonV_lon : nearN (3321219193000000000) 10000000000 ((moonV.lonW ++ moonV.lonX).map sinRow) = true := by decide +kernel

theorem moonV_lat : nearN (-4825706325000000000) 10000000000 ((moonV.latW ++ moonV.latX).map sinRow) = true := by decide +kernel

theorem moonV_psi : nearN (-65590014000000000) 10000000000 (moonV.psiW.map sinRow) = true := by decide +kernel

theorem moonV_eps : nearN (76645836000000000) 10000000000 (moonV.epsW.map cosRow) = true := by decide +kernel

theorem moonV_sl : nearN (-728220977697) 1000 [sinRow (1000000000000, 24433262541057877)] = true := by decide +kernel

theorem moonV_sb : nearN (-84124921391) 1000 [sinRow (1000000000000, -4825706325000)] = true := by decide +kernel

theorem moonV_cb : nearN (996455216054) 1000 [cosRow (1000000000000, -4825706325000)] = true := by decide +kernel

theorem moonV_se : nearN (397800772486) 1000 [sinRow (1000000000000, 23440765948037)] = true := by decide +kernel

theorem moonV_ce : nearN (917471822679) 1000 [cosRow (1000000000000, 23440765948037)] = true := by decide +kernel

theorem moonV_d1 : nearN (-365842284150) 1000 [sinRow (1000000000000, -21459427500000)] = true := by decide +kernel

theorem moonV_d2 : nearN (-365842186689) 1000 [sinRow (1000000000000, -21459421500000)] = true := by decide +kernel

/-- 2453383.5 -/
def moonW : MoonPt := ⟨24443121362224779, 22710542434153535, 2169555226807268, 24154952957464251, 24415432502349704, 27689055074825, 126386670403833, 24177043378918549, 24538184588199863, 999873337418, 5033538672⟩

theorem moonW_ok : moonW.OK (3677/73050) := by
  refine ⟨pt_deg (x := 9780606762424214845401454519872351457/400137389062736204284785000000000) ?_ ?_, pt_deg (x := 13304634752137513181051407836321079369/585835181643621624854625000000000) ?_ ?_, pt_deg (x := 207119102567553499865558147/95466158228362500000000) ?_ ?_, pt_deg (x := 235106201988340333996191999042088871/9733250253161387638350000000000) ?_ ?_, pt_deg (x := 2116383575513085575406608568417112501/86682207055288003984125000000000) ?_ ?_, pt_deg (x := 4468204982517026882480709109042237/161370800500143478445370000000000) ?_ ?_, pt_deg (x := 9232546273/73050000) ?_ ?_, pt_deg (x := 176613301883/7305000) ?_ ?_, pt_deg (x := 224064298021/9131250) ?_ ?_, ?_, ?_, ?_, ?_⟩
  · simp only [kL1, polyR, horner, dToR]; ring
  · norm_num [moonW, abs_le]
  · simp only [kD, polyR, horner, dToR]; ring
  · norm_num [moonW, abs_le]
  · simp only [kM, polyR, horner, dToR]; ring
  · norm_num [moonW, abs_le]
  · simp only [kM1, polyR, horner, dToR]; ring
  · norm_num [moonW, abs_le]
  · simp only [kF, polyR, horner, dToR]; ring
  · norm_num [moonW, abs_le]
  · simp only [ko, polyR, horner, dToR]; ring
  · norm_num [moonW, abs_le]
  · simp only [kA1, polyR, horner, dToR]; ring
  · norm_num [moonW, abs_le]
  · simp only [kA2, polyR, horner, dToR]; ring
  · norm_num [moonW, abs_le]
  · simp only [kA3, polyR, horner, dToR]; ring
  · norm_num [moonW, abs_le]
  · norm_num [moonW, abs_le]
  · norm_num [moonW, abs_le]
  · norm_num [moonW, abs_le]
  · norm_num [moonW, abs_le]

theorem moonW_lon : nearN (5124771751000000000) 10000000000 ((moonW.lonW ++ moonW.lonX).map sinRow) = true := by decide +kernel

theorem moonW_lat : nearN (-4321029446000000000) 10000000000 ((moonW.latW ++ moonW.latX).map sinRow) = true := by decide +kernel

theorem moonW_psi : nearN (-65064373000000000) 10000000000 (moonW.psiW.map sinRow) = true := by decide +kernel

theorem moonW_eps : nearN (77476540000000000) 10000000000 (moonW.epsW.map cosRow) = true := by decide +kernel

theorem moonW_sl : nearN (-526324943745) 1000 [sinRow (1000000000000, 24448242519288390)] = true := by decide +kernel

theorem moonW_sb : nearN (-75344721691) 1000 [sinRow (1000000000000, -4321029446000)] = true := by decide +kernel

theorem moonW_cb : nearN (997157546686) 1000 [cosRow (1000000000000, -4321029446000)] = true := by decide +kernel

theorem moonW_se : nearN (397801136284) 1000 [sinRow (1000000000000, 23440788667113)] = true := by decide +kernel

theorem moonW_ce : nearN (917471664942) 1000 [cosRow (1000000000000, 23440788667113)] = true := by decide +kernel

theorem moonW_d1 : nearN (-277904225847) 1000 [sinRow (1000000000000, -16135162100000)] = true := by decide +kernel

theorem moonW_d2 : nearN (-277904125252) 1000 [sinRow (1000000000000, -16135156100000)] = true := by decide +kernel

/-- 2453383.0 -/
def moonX : MoonPt := ⟨24436533163989661, 22704447059598929, 2169062426666605, 24148420460977113, 24408817827234639, 27715531954772, 126384865489391, 24170482608350445, 24531596409089665, 999873371870, 5032169747⟩

theorem moonX_ok : moonX.OK (1838/36525) := by
  refine ⟨pt_deg (x := 763903951404983377983673160145416969/31260733520526265959748828125000) ?_ ?_, pt_deg (x := 3325265966819532378253143125268511001/146458795410905406213656250000000) ?_ ?_, pt_deg (x := 51768014207837499289816477/23866539557090625000000) ?_ ?_, pt_deg (x := 14690163722828319620704253048839553/608328140822586727396875000000) ?_ ?_, pt_deg (x := 33059534388674344371554326289112169/1354409485238875062251953125000) ?_ ?_, pt_deg (x := 2795298486143084135185753294148149/100856750312589674028356250000000) ?_ ?_, pt_deg (x := 1154051803/9131250) ?_ ?_, pt_deg (x := 88282687727/3652500) ?_ ?_, pt_deg (x := 448008279421/18262500) ?_ ?_, ?_, ?_, ?_, ?_⟩
  · simp only [kL1, polyR, horner, dToR]; ring
  · norm_num [moonX, abs_le]
  · simp only [kD, polyR, horner, dToR]; ring
  · norm_num [moonX, abs_le]
  · simp only [kM, polyR, horner, dToR]; ring
  · norm_num [moonX, abs_le]
  · simp only [kM1, polyR, horner, dToR]; ring
  · norm_num [moonX, abs_le]
  · simp only [kF, polyR, horner, dToR]; ring
  · norm_num [moonX, abs_le]
  · simp only [ko, polyR, horner, dToR]; ring
  · norm_num [moonX, abs_le]
  · simp only [kA1, polyR, horner, dToR]; ring
  · norm_num [moonX, abs_le]
  · simp only [kA2, polyR, horner, dToR]; ring
  · norm_num [moonX, abs_le]
  · simp only [kA3, polyR, horner, dToR]; ring
  · norm_num [moonX, abs_le]
  · norm_num [moonX, abs_le]
  · norm_num [moonX, abs_le]
  · norm_num [moonX, abs_le]
  · norm_num [moonX, abs_le]

theorem moonX_lon : nearN (4268703266000000000) 10000000000 ((moonX.lonW ++ moonX.lonX).map sinRow) = true := by decide +kernel

theorem moonX_lat : nearN (-4611635247000000000) 10000000000 ((moonX.latW ++ moonX.latX).map sinRow) = true := by decide +kernel

theorem moonX_psi : nearN (-65226610000000000) 10000000000 (moonX.psiW.map sinRow) = true := by decide +kernel

theorem moonX_eps : nearN (77067773000000000) 10000000000 (moonX.epsW.map cosRow) = true := by decide +kernel

theorem moonX_sl : nearN (-632053058870) 1000 [sinRow (1000000000000, 24440798243555106)] = true := by decide +kernel

theorem moonX_sb : nearN (-80401341919) 1000 [sinRow (1000000000000, -4611635247000)] = true := by decide +kernel

theorem moonX_cb : nearN (996762571638) 1000 [cosRow (1000000000000, -4611635247000)] = true := by decide +kernel

theorem moonX_se : nearN (397800957314) 1000 [sinRow (1000000000000, 23440777490492)] = true := by decide +kernel

theorem moonX_ce : nearN (917471742540) 1000 [cosRow (1000000000000, 23440777490492)] = true := by decide +kernel

theorem moonX_d1 : nearN (-324383329708) 1000 [sinRow (1000000000000, -18928218400000)] = true := by decide +kernel

theorem moonX_d2 : nearN (-324383230651) 1000 [sinRow (1000000000000, -18928212400000)] = true := by decide +kernel

end Verif

import Verif.Lemmas.PointMoon

/-!
# The Moon and the nutation at the times of published examples
-/

namespace Verif
open Real

set_option exponentiation.threshold 500
set_option maxRecDepth 100000

/-- 2448724.5 -/
def moonA : MoonPt := ⟨-36945709818280640, -34086157696283360, -2422356486390377, -36714849167477049, -37220110279272138, 274400656192868, 109568477631759, -36956216774674880, -36850468360629706, 1000194244114, -7722108145⟩

theorem moonA_ok : moonA.OK (-5641 / 73050) := by
  refine ⟨pt_deg (x := -73916799318781566476612197832624356609 / 2000686945313681021423925000000000) ?_ ?_, pt_deg (x := -19968870385535293369517087705742017831 / 585835181643621624854625000000000) ?_ ?_, pt_deg (x := -231253067615243998229621047 / 95466158228362500000000) ?_ ?_, pt_deg (x := -357354814954128149886621688112347777 / 9733250253161387638350000000000) ?_ ?_, pt_deg (x := -3226321305848520847540601750569223399 / 86682207055288003984125000000000) ?_ ?_, pt_deg (x := 221401267738038428772473355118638857 / 806854002500717392226850000000000) ?_ ?_, pt_deg (x := 8003977291 / 73050000) ?_ ?_, pt_deg (x := -269965163539 / 7305000) ?_ ?_, pt_deg (x := -168245419609 / 4565625) ?_ ?_, ?_, ?_, ?_, ?_⟩
  · simp only [kL1, polyR, horner, dToR]; ring
  · norm_num [moonA, abs_le]
  · simp only [kD, polyR, horner, dToR]; ring
  · norm_num [moonA, abs_le]
  · simp only [kM, polyR, horner, dToR]; ring
  · norm_num [moonA, abs_le]
  · simp only [kM1, polyR, horner, dToR]; ring
  · norm_num [moonA, abs_le]
  · simp only [kF, polyR, horner, dToR]; ring
  · norm_num [moonA, abs_le]
  · simp only [ko, polyR, horner, dToR]; ring
  · norm_num [moonA, abs_le]
  · simp only [kA1, polyR, horner, dToR]; ring
  · norm_num [moonA, abs_le]
  · simp only [kA2, polyR, horner, dToR]; ring
  · norm_num [moonA, abs_le]
  · simp only [kA3, polyR, horner, dToR]; ring
  · norm_num [moonA, abs_le]
  · norm_num [moonA, abs_le]
  · norm_num [moonA, abs_le]
  · norm_num [moonA, abs_le]
  · norm_num [moonA, abs_le]

theorem moonA_lon : nearN (-1127527034000000000) 10000000000 ((moonA.lonW ++ moonA.lonX).map sinRow) = true := by decide +kernel

theorem moonA_lat : nearN (-3229126419000000000) 10000000000 ((moonA.latW ++ moonA.latX).map sinRow) = true := by decide +kernel

theorem moonA_rad : nearN (-16590875184000000000) 10000000000 (moonA.radW.map cosRow) = true := by decide +kernel

theorem moonA_psi : nearN (165945322000000000) 10000000000 (moonA.psiW.map sinRow) = true := by decide +kernel

theorem moonA_eps : nearN (12229500000000000) 10000000000 (moonA.epsW.map cosRow) = true := by decide +kernel

/-- 2456466.5 -/
def moonB : MoonPt := ⟨65065951668712963, 60294621924448662, 5208160893041473, 64434326359476390, 65201519235803587, -135567371890145, 137515772854209, 64630754701848049, 65160896981683778, 999660851438, 13474332649⟩

theorem moonB_ok : moonB.OK (3281 / 24350) := by
  refine ⟨pt_deg (x := 321423703920999863966575597556401567 / 4939967766206619805985000000000) ?_ ?_, pt_deg (x := 1308248547675661948943287300385922067 / 21697599320134134253875000000000) ?_ ?_, pt_deg (x := 18414930070143222719306311 / 3535783638087500000000) ?_ ?_, pt_deg (x := 7742659547538975849588112037163631 / 120163583372362810350000000000) ?_ ?_, pt_deg (x := 69775451737250248952143102410494281 / 1070150704386271654125000000000) ?_ ?_, pt_deg (x := -270081670661892418356577156001307 / 1992232104940042943770000000000) ?_ ?_, pt_deg (x := 3348509069 / 24350000) ?_ ?_, pt_deg (x := 157375887699 / 2435000) ?_ ?_, pt_deg (x := 99166740094 / 1521875) ?_ ?_, ?_, ?_, ?_, ?_⟩
  · simp only [kL1, polyR, horner, dToR]; ring
  · norm_num [moonB, abs_le]
  · simp only [kD, polyR, horner, dToR]; ring
  · norm_num [moonB, abs_le]
  · simp only [kM, polyR, horner, dToR]; ring
  · norm_num [moonB, abs_le]
  · simp only [kM1, polyR, horner, dToR]; ring
  · norm_num [moonB, abs_le]
  · simp only [kF, polyR, horner, dToR]; ring
  · norm_num [moonB, abs_le]
  · simp only [ko, polyR, horner, dToR]; ring
  · norm_num [moonB, abs_le]
  · simp only [kA1, polyR, horner, dToR]; ring
  · norm_num [moonB, abs_le]
  · simp only [kA2, polyR, horner, dToR]; ring
  · norm_num [moonB, abs_le]
  · simp only [kA3, polyR, horner, dToR]; ring
  · norm_num [moonB, abs_le]
  · norm_num [moonB, abs_le]
  · norm_num [moonB, abs_le]
  · norm_num [moonB, abs_le]
  · norm_num [moonB, abs_le]

theorem moonB_lon : nearN (-1145830131000000000) 10000000000 ((moonB.lonW ++ moonB.lonX).map sinRow) = true := by decide +kernel

theorem moonB_lat : nearN (3227201362000000000) 10000000000 ((moonB.latW ++ moonB.latX).map sinRow) = true := by decide +kernel

theorem moonB_rad : nearN (-27794645137000000000) 10000000000 (moonB.radW.map cosRow) = true := by decide +kernel

theorem moonB_psi : nearN (123202666000000000) 10000000000 (moonB.psiW.map sinRow) = true := by decide +kernel

theorem moonB_eps : nearN (-72406773000000000) 10000000000 (moonB.epsW.map cosRow) = true := by decide +kernel

/-- 2446895.5 -/
def nutA : MoonPt := ⟨-61045338986466095, -56383037845793941, -4225019403283313, -60610721183865015, -61416591906017813, 371253114754619, 102966100602327, -60955515512799452, -60950027545735797, 1000320157761, -12729637235⟩

theorem nutA_ok : nutA.OK (-9299 / 73050) := by
  refine ⟨pt_deg (x := -122132612782471013232858667141068299659 / 2000686945313681021423925000000000) ?_ ?_, pt_deg (x := -33031167218009885682991782615088288471 / 585835181643621624854625000000000) ?_ ?_, pt_deg (x := -403346370871746480896898317 / 95466158228362500000000) ?_ ?_, pt_deg (x := -589939317307148438085578694197410777 / 9733250253161387638350000000000) ?_ ?_, pt_deg (x := -5323725736227561358651143283741040459 / 86682207055288003984125000000000) ?_ ?_, pt_deg (x := 299547061580622868689239633671783217 / 806854002500717392226850000000000) ?_ ?_, pt_deg (x := 7521673649 / 73050000) ?_ ?_, pt_deg (x := -445280040821 / 7305000) ?_ ?_, pt_deg (x := -556549939027 / 9131250) ?_ ?_, ?_, ?_, ?_, ?_⟩
  · simp only [kL1, polyR, horner, dToR]; ring
  · norm_num [nutA, abs_le]
  · simp only [kD, polyR, horner, dToR]; ring
  · norm_num [nutA, abs_le]
  · simp only [kM, polyR, horner, dToR]; ring
  · norm_num [nutA, abs_le]
  · simp only [kM1, polyR, horner, dToR]; ring
  · norm_num [nutA, abs_le]
  · simp only [kF, polyR, horner, dToR]; ring
  · norm_num [nutA, abs_le]
  · simp only [ko, polyR, horner, dToR]; ring
  · norm_num [nutA, abs_le]
  · simp only [kA1, polyR, horner, dToR]; ring
  · norm_num [nutA, abs_le]
  · simp only [kA2, polyR, horner, dToR]; ring
  · norm_num [nutA, abs_le]
  · simp only [kA3, polyR, horner, dToR]; ring
  · norm_num [nutA, abs_le]
  · norm_num [nutA, abs_le]
  · norm_num [nutA, abs_le]
  · norm_num [nutA, abs_le]
  · norm_num [nutA, abs_le]

theorem nutA_psi : nearN (-37879547000000000) 10000000000 (nutA.psiW.map sinRow) = true := by decide +kernel

theorem nutA_eps : nearN (94425154000000000) 10000000000 (nutA.epsW.map cosRow) = true := by decide +kernel

/-- 2456479.5 -/
def nutB : MoonPt := ⟨65237244822730989, 60453101662755134, 5220973696689465, 64604171268668617, 65373500788575250, -136255770643776, 137562700629706, 64801334736618754, 65332189638548939, 999659955231, 13509924709⟩

theorem nutB_ok : nutB.OK (9869 / 73050) := by
  refine ⟨pt_deg (x := 130519304065070414716429407460139119061 / 2000686945313681021423925000000000) ?_ ?_, pt_deg (x := 35415553793520478138124674463806242409 / 585835181643621624854625000000000) ?_ ?_, pt_deg (x := 498426301034275156742391443 / 95466158228362500000000) ?_ ?_, pt_deg (x := 628808566356050462926330276971094823 / 9733250253161387638350000000000) ?_ ?_, pt_deg (x := 5666719331284313389710392370482427061 / 86682207055288003984125000000000) ?_ ?_, pt_deg (x := -109938513907750111901434953465066703 / 806854002500717392226850000000000) ?_ ?_, pt_deg (x := 10048955281 / 73050000) ?_ ?_, pt_deg (x := 473373750251 / 7305000) ?_ ?_, pt_deg (x := 596564556637 / 9131250) ?_ ?_, ?_, ?_, ?_, ?_⟩
  · simp only [kL1, polyR, horner, dToR]; ring
  · norm_num [nutB, abs_le]
  · simp only [kD, polyR, horner, dToR]; ring
  · norm_num [nutB, abs_le]
  · simp only [kM, polyR, horner, dToR]; ring
  · norm_num [nutB, abs_le]
  · simp only [kM1, polyR, horner, dToR]; ring
  · norm_num [nutB, abs_le]
  · simp only [kF, polyR, horner, dToR]; ring
  · norm_num [nutB, abs_le]
  · simp only [ko, polyR, horner, dToR]; ring
  · norm_num [nutB, abs_le]
  · simp only [kA1, polyR, horner, dToR]; ring
  · norm_num [nutB, abs_le]
  · simp only [kA2, polyR, horner, dToR]; ring
  · norm_num [nutB, abs_le]
  · simp only [kA3, polyR, horner, dToR]; ring
  · norm_num [nutB, abs_le]
  · norm_num [nutB, abs_le]
  · norm_num [nutB, abs_le]
  · norm_num [nutB, abs_le]
  · norm_num [nutB, abs_le]

theorem nutB_psi : nearN (126751860000000000) 10000000000 (nutB.psiW.map sinRow) = true := by decide +kernel

theorem nutB_eps : nearN (-72387054000000000) 10000000000 (nutB.epsW.map cosRow) = true := by decide +kernel

end Verif

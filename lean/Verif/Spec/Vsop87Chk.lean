import Mathlib.Data.Int.Notation

/-!
# Published check values of the planetary theory

The `VSOP87D` entries of `tests/vsop87.chk`, the file of check values which the authors of the
theory (Bretagnon and Francou, Bureau des Longitudes) distribute with it.  They are not computed
from the tables of the program.
-/

namespace Verif

/-- Planet, Julian day, heliocentric longitude and latitude (radians) and distance (astronomical
units), all three in units of `1e-10`, the last digit given in the file. -/
structure ChkEntry where
  planet : String
  jd : ℤ
  l : ℤ
  b : ℤ
  r : ℤ

/-- `tests/vsop87.chk`, `VSOP87D MERCURY`. -/
def chkMercury : List ChkEntry := [
  ⟨"Mercury", 2451545, 44293481036, -527573409, 4664714751⟩,
  ⟨"Mercury", 2415020, 34851161911, 565906173, 4183426275⟩,
  ⟨"Mercury", 2378495, 20737894888, 1168184804, 3233909533⟩,
  ⟨"Mercury", 2341970, 1910149587, -682441256, 3381563139⟩,
  ⟨"Mercury", 2305445, 51836421820, -1170914848, 4326517759⟩,
  ⟨"Mercury", 2268920, 42636517903, -457048516, 4661523936⟩,
  ⟨"Mercury", 2232395, 33115600862, 639722347, 4152385205⟩,
  ⟨"Mercury", 2195870, 18738888759, 1126774697, 3209366232⟩,
  ⟨"Mercury", 2159345, 62819826060, -768697084, 3414354250⟩,
  ⟨"Mercury", 2122820, 50128397764, -1143275808, 4352063237⟩]

/-- `tests/vsop87.chk`, `VSOP87D VENUS`. -/
def chkVenus : List ChkEntry := [
  ⟨"Venus", 2451545, 31870221833, 569782849, 7202129253⟩,
  ⟨"Venus", 2415020, 59749622238, -591260014, 7274719359⟩,
  ⟨"Venus", 2378495, 25083656668, 552309407, 7185473298⟩,
  ⟨"Venus", 2341970, 53115708036, -455979904, 7283407528⟩,
  ⟨"Venus", 2305445, 18291359617, 311394084, 7186375037⟩,
  ⟨"Venus", 2268920, 46495448744, -145437542, 7273363753⟩,
  ⟨"Venus", 2232395, 11527504143, -54100666, 7205428514⟩,
  ⟨"Venus", 2195870, 39850309909, 222342485, 7247441174⟩,
  ⟨"Venus", 2159345, 4804699931, -395505250, 7235430458⟩,
  ⟨"Venus", 2122820, 33145399295, 505016053, 7215819783⟩]

/-- `tests/vsop87.chk`, `VSOP87D EARTH`. -/
def chkEarth : List ChkEntry := [
  ⟨"Earth", 2451545, 17519238681, -39656, 9833276819⟩,
  ⟨"Earth", 2415020, 17391225563, -5679, 9832689778⟩,
  ⟨"Earth", 2378495, 17262638916, 2083, 9832274321⟩,
  ⟨"Earth", 2341970, 17134419105, 25051, 9831498441⟩,
  ⟨"Earth", 2305445, 17006065938, -16359, 9831254376⟩,
  ⟨"Earth", 2268920, 16877624960, -20340, 9830816756⟩,
  ⟨"Earth", 2232395, 16750110961, 37879, 9830754409⟩,
  ⟨"Earth", 2195870, 16622048657, 15133, 9830942385⟩,
  ⟨"Earth", 2159345, 16495143197, -13003, 9830440397⟩,
  ⟨"Earth", 2122820, 16367193623, -31292, 9830331815⟩]

/-- `tests/vsop87.chk`, `VSOP87D MARS`. -/
def chkMars : List ChkEntry := [
  ⟨"Mars", 2451545, 62735389983, -247779824, 13912076925⟩,
  ⟨"Mars", 2415020, 49942005211, -271965869, 14218777705⟩,
  ⟨"Mars", 2378495, 38711855478, 34969939, 15615140011⟩,
  ⟨"Mars", 2341970, 29166648690, 280268149, 16584697082⟩,
  ⟨"Mars", 2305445, 20058210394, 300702181, 16371997207⟩,
  ⟨"Mars", 2268920, 10050966939, 66676098, 15123622690⟩,
  ⟨"Mars", 2232395, 60979760762, -266794243, 13925964529⟩,
  ⟨"Mars", 2195870, 48193924948, -255031923, 14208707215⟩,
  ⟨"Mars", 2159345, 36939294875, 65885509, 15593802008⟩,
  ⟨"Mars", 2122820, 27367104344, 295522719, 16571002307⟩]

/-- `tests/vsop87.chk`, `VSOP87D JUPITER`. -/
def chkJupiter : List ChkEntry := [
  ⟨"Jupiter", 2451545, 6334614186, -205001039, 49653813154⟩,
  ⟨"Jupiter", 2415020, 40927527024, 161446618, 53850276671⟩,
  ⟨"Jupiter", 2378495, 15255696771, -43606936, 51318457604⟩,
  ⟨"Jupiter", 2341970, 48888943125, -11098085, 51888133656⟩,
  ⟨"Jupiter", 2305445, 23348832684, 140523907, 53439455032⟩,
  ⟨"Jupiter", 2268920, 57527666852, -188346311, 50018007395⟩,
  ⟨"Jupiter", 2232395, 30889515350, 231157947, 54491570191⟩,
  ⟨"Jupiter", 2195870, 3776503430, -222448936, 49715071036⟩,
  ⟨"Jupiter", 2159345, 38455069137, 185554473, 53896206945⟩,
  ⟨"Jupiter", 2122820, 12695066546, -75335740, 51193587362⟩]

/-- `tests/vsop87.chk`, `VSOP87D SATURN`. -/
def chkSaturn : List ChkEntry := [
  ⟨"Saturn", 2451545, 7980038761, -401984149, 91838483715⟩,
  ⟨"Saturn", 2415020, 46512836347, 192701409, 100668531997⟩,
  ⟨"Saturn", 2378495, 21956677359, 104156566, 91043068639⟩,
  ⟨"Saturn", 2341970, 58113963637, -291472787, 97629994924⟩,
  ⟨"Saturn", 2305445, 35217555199, 437035058, 97571035629⟩,
  ⟨"Saturn", 2268920, 8594235308, -379350088, 90669212839⟩,
  ⟨"Saturn", 2232395, 46913199264, 146771898, 101065692994⟩,
  ⟨"Saturn", 2195870, 22948875823, 178533697, 91857599537⟩,
  ⟨"Saturn", 2159345, 58660241564, -333866503, 95927173940⟩,
  ⟨"Saturn", 2122820, 35570108069, 435371139, 98669939498⟩]

/-- `tests/vsop87.chk`, `VSOP87D URANUS`. -/
def chkUranus : List ChkEntry := [
  ⟨"Uranus", 2451545, 55225485803, -119527838, 199240482667⟩,
  ⟨"Uranus", 2415020, 43397761173, 11570307, 189927163620⟩,
  ⟨"Uranus", 2378495, 30388348558, 132392955, 182991154397⟩,
  ⟨"Uranus", 2341970, 17242204720, 59836565, 187966208854⟩,
  ⟨"Uranus", 2305445, 5223325214, -89983885, 197819882707⟩,
  ⟨"Uranus", 2268920, 56817615582, -129257254, 200300462993⟩,
  ⟨"Uranus", 2232395, 45254482963, -19303340, 192694311058⟩,
  ⟨"Uranus", 2195870, 32557221720, 120919639, 183948228639⟩,
  ⟨"Uranus", 2159345, 19333853935, 88045918, 185841501334⟩,
  ⟨"Uranus", 2122820, 7007226224, -65610611, 195612078271⟩]

/-- `tests/vsop87.chk`, `VSOP87D NEPTUNE`. -/
def chkNeptune : List ChkEntry := [
  ⟨"Neptune", 2451545, 53045629252, 42236789, 301205328392⟩,
  ⟨"Neptune", 2415020, 14956195225, -219610030, 298710345051⟩,
  ⟨"Neptune", 2378495, 39290537977, 310692112, 303209192288⟩,
  ⟨"Neptune", 2341970, 815199679, -260752533, 298685860491⟩,
  ⟨"Neptune", 2305445, 25537079778, 102374010, 301360158724⟩,
  ⟨"Neptune", 2268920, 49678695785, 116907777, 301785350169⟩,
  ⟨"Neptune", 2232395, 11523661584, -273547725, 298326055236⟩,
  ⟨"Neptune", 2195870, 35930943433, 316878975, 303109114960⟩,
  ⟨"Neptune", 2159345, 60203596580, -215169842, 299065506848⟩,
  ⟨"Neptune", 2122820, 22124988267, 27498093, 300653693610⟩]

/-- All entries. -/
def vsop87Chk : List ChkEntry :=
  chkMercury ++ chkVenus ++ chkEarth ++ chkMars ++ chkJupiter ++ chkSaturn ++ chkUranus ++ chkNeptune

end Verif

import Verif.Lemmas.EqBlock.Autumn0

/-!
# Winter, years -1000 to 23
-/

namespace Verif

set_option maxRecDepth 100000

theorem blkWinter0 :
    blockN (-2998969150373) 999980512 lin0 (-73013060013000000000000) 36524288257000000000
    (-769000000) (-933000) (-6) (-1000) (-11995) 133306548970166681600000 [3, 4, 19, 39, 51, 647,
    719] 1024 = true := by
  decide +kernel

end Verif

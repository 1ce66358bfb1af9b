import Verif.Lemmas.EqLin

/-!
# Spring, years -1000 to 23
-/

namespace Verif

set_option maxRecDepth 100000

theorem blkSpring0 :
    blockN (-2999720173702) 999978313 lin0 (-73040570811000000000000) 36524213740000000000
    6134000000 111000 (-71) (-1000) (-11998) 133306548970166681600000 [5, 24, 37, 349, 365, 647,
    756, 851] 1024 = true := by
  decide +kernel

end Verif

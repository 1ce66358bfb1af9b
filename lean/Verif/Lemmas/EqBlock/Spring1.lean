import Verif.Lemmas.EqBlock.Winter0

/-!
# Spring, years 24 to 1000
-/

namespace Verif

set_option maxRecDepth 100000

theorem blkSpring1 :
    blockN (-1975742379572) 999978647 lin1 (-73040570811000000000000) 36524213740000000000
    6134000000 111000 (-71) 24 (-7902) 133306548970166681600000 [447, 684, 732] 977 = true := by
  decide +kernel

end Verif

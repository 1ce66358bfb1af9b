import Verif.Lemmas.EqBlock.Summer1

/-!
# Autumn, years 24 to 1000
-/

namespace Verif

set_option maxRecDepth 100000

theorem blkAutumn1 :
    blockN (-1975231927274) 999979121 lin1 (-73021929545000000000000) 36524249558000000000
    (-11677000000) (-297000) 74 24 (-7900) 133306548970166681600000 [354] 977 = true := by
  decide +kernel

end Verif

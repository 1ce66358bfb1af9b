import Verif.Lemmas.EqBlock.Summer0

/-!
# Autumn, years -1000 to 23
-/

namespace Verif

set_option maxRecDepth 100000

theorem blkAutumn0 :
    blockN (-2999211197538) 999979758 lin0 (-73021929545000000000000) 36524249558000000000
    (-11677000000) (-297000) 74 (-1000) (-11996) 133306548970166681600000 [2, 4, 20, 37, 210, 227,
    599, 644, 645, 647, 663, 671, 718, 849, 850] 1024 = true := by
  decide +kernel

end Verif

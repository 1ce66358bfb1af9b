import Verif.Lemmas.EqBlock.Spring0

/-!
# Summer, years -1000 to 23
-/

namespace Verif

set_option maxRecDepth 100000

theorem blkSummer0 :
    blockN (-2999462081159) 999977511 lin0 (-73031174599000000000000) 36524172562000000000
    (-5323000000) 907000 (-25) (-1000) (-11997) 133306548970166681600000 [141, 197, 365, 384, 385,
    401, 402, 425, 496, 497, 513, 528, 552, 568, 592, 607, 608, 611, 612, 615, 623, 624, 627, 628,
    639, 640, 643, 644, 645, 647, 659, 660, 661, 663, 664, 671, 675, 676, 683, 687, 699, 703, 718,
    723, 739, 755, 756, 829, 850] 1024 = true := by
  decide +kernel

end Verif

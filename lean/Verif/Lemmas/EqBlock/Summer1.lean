import Verif.Lemmas.EqBlock.Spring1

/-!
# Summer, years 24 to 1000
-/

namespace Verif

set_option maxRecDepth 100000

theorem blkSummer1 :
    blockN (-1975485118876) 999977219 lin1 (-73031174599000000000000) 36524172562000000000
    (-5323000000) 907000 (-25) 24 (-7901) 133306548970166681600000 [] 977 = true := by
  decide +kernel

end Verif

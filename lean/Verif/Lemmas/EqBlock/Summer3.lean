import Verif.Lemmas.EqBlock.Spring3

/-!
# Summer, years 2025 to 3000
-/

namespace Verif

set_option maxRecDepth 100000

theorem blkSummer3 :
    blockN 25469149737 999977104 lin3 17156767000000000000 36524162603000000000 325000000 888000
    (-30) 25 103 103762935414616227840000 [] 976 = true := by
  decide +kernel

end Verif

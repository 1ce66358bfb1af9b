import Verif.Lemmas.EqBlock.Spring2

/-!
# Summer, years 1001 to 2024
-/

namespace Verif

set_option maxRecDepth 100000

theorem blkSummer2 :
    blockN (-998507381313) 999977086 lin2 17156767000000000000 36524162603000000000 325000000
    888000 (-30) (-999) (-3993) 103762935414616227840000 [] 1024 = true := by
  decide +kernel

end Verif

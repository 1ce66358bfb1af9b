import Verif.Lemmas.EqBlock.Autumn1

/-!
# Winter, years 24 to 1000
-/

namespace Verif

set_option maxRecDepth 100000

theorem blkWinter1 :
    blockN (-1974989100520) 999980468 lin1 (-73013060013000000000000) 36524288257000000000
    (-769000000) (-933000) (-6) 24 (-7899) 133306548970166681600000 [398, 403, 413, 414, 415, 429,
    430, 433, 445, 446, 447, 462, 640, 652] 977 = true := by
  decide +kernel

end Verif

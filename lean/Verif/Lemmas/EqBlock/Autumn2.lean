import Verif.Lemmas.EqBlock.Summer2

/-!
# Autumn, years 1001 to 2024
-/

namespace Verif

set_option maxRecDepth 100000

theorem blkAutumn2 :
    blockN (-998252322902) 999978461 lin2 26521715000000000000 36524201767000000000 (-11575000000)
    337000 78 (-999) (-3992) 103762935414616227840000 [] 1024 = true := by
  decide +kernel

end Verif

import Verif.Lemmas.EqBlock.Summer3

/-!
# Autumn, years 2025 to 3000
-/

namespace Verif

set_option maxRecDepth 100000

theorem blkAutumn3 :
    blockN 25725614252 999977831 lin3 26521715000000000000 36524201767000000000 (-11575000000)
    337000 78 25 104 103762935414616227840000 [] 976 = true := by
  decide +kernel

end Verif

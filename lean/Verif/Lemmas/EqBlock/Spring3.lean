import Verif.Lemmas.EqBlock.Winter2

/-!
# Spring, years 2025 to 3000
-/

namespace Verif

set_option maxRecDepth 100000

theorem blkSpring3 :
    blockN 25215232940 999979255 lin3 7880984000000000000 36524237404000000000 5169000000
    (-411000) (-57) 25 102 103762935414616227840000 [] 976 = true := by
  decide +kernel

end Verif

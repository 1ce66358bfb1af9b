import Verif.Lemmas.EqBlock.Winter1

/-!
# Spring, years 1001 to 2024
-/

namespace Verif

set_option maxRecDepth 100000

theorem blkSpring2 :
    blockN (-998763242196) 999978975 lin2 7880984000000000000 36524237404000000000 5169000000
    (-411000) (-57) (-999) (-3994) 103762935414616227840000 [] 1024 = true := by
  decide +kernel

end Verif

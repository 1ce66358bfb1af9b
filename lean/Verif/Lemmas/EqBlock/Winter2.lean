import Verif.Lemmas.EqBlock.Autumn2

/-!
# Winter, years 1001 to 2024
-/

namespace Verif

set_option maxRecDepth 100000

theorem blkWinter2 :
    blockN (-998008175276) 999980270 lin2 35505952000000000000 36524274049000000000 (-6223000000)
    (-823000) 32 (-999) (-3991) 103762935414616227840000 [] 1024 = true := by
  decide +kernel

end Verif

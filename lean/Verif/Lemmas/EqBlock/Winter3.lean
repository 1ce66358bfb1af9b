import Verif.Lemmas.EqBlock.Autumn3

/-!
# Winter, years 2025 to 3000
-/

namespace Verif

set_option maxRecDepth 100000

theorem blkWinter3 :
    blockN 25971625735 999979930 lin3 35505952000000000000 36524274049000000000 (-6223000000)
    (-823000) 32 25 105 103762935414616227840000 [] 976 = true := by
  decide +kernel

end Verif

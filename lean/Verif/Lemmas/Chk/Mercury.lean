import Verif.Lemmas.ChkEntry

/-!
# The check values of Mercury
-/

namespace Verif

/-- What is to be computed for the entries of `chkMercury`. -/
def targetMercury : List ChkTarget := [
  ⟨0, 10000442934810360000000000, 0, 9999994724265910000000000, 10000046647147510000000000⟩,
  ⟨1, 9739596321371157161207820, 415, 10000005659061730000000000, 10000041834262750000000000⟩,
  ⟨2, 9478702998452974322415640, 830, 10000011681848040000000000, 10000032339095330000000000⟩,
  ⟨3, 9217762530752011483623460, 1245, 9999993175587440000000000, 10000033815631390000000000⟩,
  ⟨4, 8956881284695670686183588, 1661, 9999988290851520000000000, 10000043265177590000000000⟩,
  ⟨5, 8696037095408547847391408, 2076, 9999995429514840000000000, 10000046615239360000000000⟩,
  ⟨6, 8435189695990185008599228, 2491, 10000006397223470000000000, 10000041523852050000000000⟩,
  ⟨7, 8174293738621202169807048, 2906, 10000011267746970000000000, 10000032093662320000000000⟩,
  ⟨8, 7913354039215541372367176, 3322, 9999992313029160000000000, 10000034143542500000000000⟩,
  ⟨9, 7652474934684628533574996, 3737, 9999988567241920000000000, 10000043520632370000000000⟩]

theorem chk_mercuryL : allN Data.mercuryL (targetMercury.map ChkTarget.L) = true := by decide +kernel

theorem small_mercuryL : smallN Data.mercuryL = true := by decide +kernel

theorem chk_mercuryB : allN Data.mercuryB (targetMercury.map ChkTarget.B) = true := by decide +kernel

theorem small_mercuryB : smallN Data.mercuryB = true := by decide +kernel

theorem chk_mercuryR : allN Data.mercuryR (targetMercury.map ChkTarget.R) = true := by decide +kernel

theorem small_mercuryR : smallN Data.mercuryR = true := by decide +kernel

theorem match_mercury : matchOk "Mercury" chkMercury targetMercury = true := by decide +kernel

theorem chk_mercury : ∀ e ∈ chkMercury, Meets e :=
  meets_of rfl rfl rfl match_mercury small_mercuryL small_mercuryB small_mercuryR chk_mercuryL chk_mercuryB chk_mercuryR

end Verif

import Verif.Lemmas.ChkEntry

/-!
# The check values of Neptune
-/

namespace Verif

/-- What is to be computed for the entries of `chkNeptune`. -/
def targetNeptune : List ChkTarget := [
  ⟨0, 10000530456292520000000000, 0, 10000000422367890000000000, 10003012053283920000000000⟩,
  ⟨1, 10000149561952250000000000, 0, 9999997803899700000000000, 10002987103450510000000000⟩,
  ⟨2, 9999764586849052041352308, 1, 10000003106921120000000000, 10003032091922880000000000⟩,
  ⟨3, 9999379833466072041352308, 1, 9999997392474670000000000, 10002986858604910000000000⟩,
  ⟨4, 9998998733736344082704616, 2, 10000001023740100000000000, 10003013601587240000000000⟩,
  ⟨5, 9998611831365696124056924, 3, 10000001169077770000000000, 10003017853501690000000000⟩,
  ⟨6, 9998230281023686124056924, 3, 9999997264522750000000000, 10002983260552360000000000⟩,
  ⟨7, 9997846035311458165409232, 4, 10000003168789750000000000, 10003031091149600000000000⟩,
  ⟨8, 9997460443312210206761540, 5, 9999997848301580000000000, 10002990655068480000000000⟩,
  ⟨9, 9997079657229080206761540, 5, 10000000274980930000000000, 10003006536936100000000000⟩]

theorem chk_neptuneL : allN Data.neptuneL (targetNeptune.map ChkTarget.L) = true := by decide +kernel

theorem small_neptuneL : smallN Data.neptuneL = true := by decide +kernel

theorem chk_neptuneB : allN Data.neptuneB (targetNeptune.map ChkTarget.B) = true := by decide +kernel

theorem small_neptuneB : smallN Data.neptuneB = true := by decide +kernel

theorem chk_neptuneR : allN Data.neptuneR (targetNeptune.map ChkTarget.R) = true := by decide +kernel

theorem small_neptuneR : smallN Data.neptuneR = true := by decide +kernel

theorem match_neptune : matchOk "Neptune" chkNeptune targetNeptune = true := by decide +kernel

theorem chk_neptune : ∀ e ∈ chkNeptune, Meets e :=
  meets_of rfl rfl rfl match_neptune small_neptuneL small_neptuneB small_neptuneR chk_neptuneL chk_neptuneB chk_neptuneR

end Verif

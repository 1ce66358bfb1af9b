import Verif.Lemmas.ChkEntry

/-!
# The check values of Jupiter
-/

namespace Verif

/-- What is to be computed for the entries of `chkJupiter`. -/
def targetJupiter : List ChkTarget := [
  ⟨0, 10000063346141860000000000, 0, 9999997949989610000000000, 10000496538131540000000000⟩,
  ⟨1, 9994754408493778372170772, 9, 10000001614466180000000000, 10000538502766710000000000⟩,
  ⟨2, 9989471141945504702989236, 17, 9999999563930640000000000, 10000513184576040000000000⟩,
  ⟨3, 9984152607632583075160008, 26, 9999999889019150000000000, 10000518881336560000000000⟩,
  ⟨4, 9978870658282429405978472, 34, 10000001405239070000000000, 10000534394550320000000000⟩,
  ⟨5, 9973557579847647778149244, 43, 9999998116536890000000000, 10000500180073950000000000⟩,
  ⟨6, 9968264650086884108967708, 51, 10000002311579470000000000, 10000544915701910000000000⟩,
  ⟨7, 9962966971721940439786172, 59, 9999997775510640000000000, 10000497150710360000000000⟩,
  ⟨8, 9957658890602548811956944, 68, 10000001855544730000000000, 10000538962069450000000000⟩,
  ⟨9, 9952374742330895142775408, 76, 9999999246642600000000000, 10000511935873620000000000⟩]

theorem chk_jupiterL : allN Data.jupiterL (targetJupiter.map ChkTarget.L) = true := by decide +kernel

theorem small_jupiterL : smallN Data.jupiterL = true := by decide +kernel

theorem chk_jupiterB : allN Data.jupiterB (targetJupiter.map ChkTarget.B) = true := by decide +kernel

theorem small_jupiterB : smallN Data.jupiterB = true := by decide +kernel

theorem chk_jupiterR : allN Data.jupiterR (targetJupiter.map ChkTarget.R) = true := by decide +kernel

theorem small_jupiterR : smallN Data.jupiterR = true := by decide +kernel

theorem match_jupiter : matchOk "Jupiter" chkJupiter targetJupiter = true := by decide +kernel

theorem chk_jupiter : ∀ e ∈ chkJupiter, Meets e :=
  meets_of rfl rfl rfl match_jupiter small_jupiterL small_jupiterB small_jupiterR chk_jupiterL chk_jupiterB chk_jupiterR

end Verif

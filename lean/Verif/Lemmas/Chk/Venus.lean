import Verif.Lemmas.ChkEntry

/-!
# The check values of Venus
-/

namespace Verif

/-- What is to be computed for the entries of `chkVenus`. -/
def targetVenus : List ChkTarget := [
  ⟨0, 10000318702218330000000000, 0, 10000005697828490000000000, 10000072021292530000000000⟩,
  ⟨1, 9898181575715352740426204, 163, 9999994087399860000000000, 10000072747193590000000000⟩,
  ⟨2, 9796047314083343439500100, 325, 10000005523094070000000000, 10000071854732980000000000⟩,
  ⟨3, 9693911714089996179926304, 488, 9999995440200960000000000, 10000072834075280000000000⟩,
  ⟨4, 9591775868629496879000200, 650, 10000003113940840000000000, 10000071863750370000000000⟩,
  ⟨5, 9489641989013739619426404, 813, 9999998545624580000000000, 10000072733637530000000000⟩,
  ⟨6, 9387504707591420318500300, 975, 9999999458993340000000000, 10000072054285140000000000⟩,
  ⟨7, 9285372015142053058926504, 1138, 10000002223424850000000000, 10000072474411740000000000⟩,
  ⟨8, 9183233957065963758000400, 1300, 9999996044947500000000000, 10000072354304580000000000⟩,
  ⟨9, 9081101443552576498426604, 1463, 10000005050160530000000000, 10000072158197830000000000⟩]

theorem chk_venusL : allN Data.venusL (targetVenus.map ChkTarget.L) = true := by decide +kernel

theorem small_venusL : smallN Data.venusL = true := by decide +kernel

theorem chk_venusB : allN Data.venusB (targetVenus.map ChkTarget.B) = true := by decide +kernel

theorem small_venusB : smallN Data.venusB = true := by decide +kernel

theorem chk_venusR : allN Data.venusR (targetVenus.map ChkTarget.R) = true := by decide +kernel

theorem small_venusR : smallN Data.venusR = true := by decide +kernel

theorem match_venus : matchOk "Venus" chkVenus targetVenus = true := by decide +kernel

theorem chk_venus : ∀ e ∈ chkVenus, Meets e :=
  meets_of rfl rfl rfl match_venus small_venusL small_venusB small_venusR chk_venusL chk_venusB chk_venusR

end Verif

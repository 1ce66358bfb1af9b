import Verif.Lemmas.ChkEntry

/-!
# The check values of Earth
-/

namespace Verif

/-- What is to be computed for the entries of `chkEarth`. -/
def targetEarth : List ChkTarget := [
  ⟨0, 10000175192386810000000000, 0, 9999999999603440000000000, 10000098332768190000000000⟩,
  ⟨1, 9937342059183834135230800, 100, 9999999999943210000000000, 10000098326897780000000000⟩,
  ⟨2, 9874508920245568270461600, 200, 10000000000020830000000000, 10000098322743210000000000⟩,
  ⟨3, 9811675784975662405692400, 300, 10000000000250510000000000, 10000098314984410000000000⟩,
  ⟨4, 9748842648372196540923200, 400, 9999999999836410000000000, 10000098312543760000000000⟩,
  ⟨5, 9686009510890620676154000, 500, 9999999999796600000000000, 10000098308167560000000000⟩,
  ⟨6, 9623176382678834811384800, 600, 10000000000378790000000000, 10000098307544090000000000⟩,
  ⟨7, 9560343248983998946615600, 700, 10000000000151330000000000, 10000098309423850000000000⟩,
  ⟨8, 9497510126857603081846400, 800, 9999999999869970000000000, 10000098304403970000000000⟩,
  ⟨9, 9434676994290067217077200, 900, 9999999999687080000000000, 10000098303318150000000000⟩]

theorem chk_earthL : allN Data.earthL (targetEarth.map ChkTarget.L) = true := by decide +kernel

theorem small_earthL : smallN Data.earthL = true := by decide +kernel

theorem chk_earthB : allN Data.earthB (targetEarth.map ChkTarget.B) = true := by decide +kernel

theorem small_earthB : smallN Data.earthB = true := by decide +kernel

theorem chk_earthR : allN Data.earthR (targetEarth.map ChkTarget.R) = true := by decide +kernel

theorem small_earthR : smallN Data.earthR = true := by decide +kernel

theorem match_earth : matchOk "Earth" chkEarth targetEarth = true := by decide +kernel

theorem chk_earth : ∀ e ∈ chkEarth, Meets e :=
  meets_of rfl rfl rfl match_earth small_earthL small_earthB small_earthR chk_earthL chk_earthB chk_earthR

end Verif

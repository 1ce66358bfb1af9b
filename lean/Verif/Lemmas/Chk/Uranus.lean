import Verif.Lemmas.ChkEntry

/-!
# The check values of Uranus
-/

namespace Verif

/-- What is to be computed for the entries of `chkUranus`. -/
def targetUranus : List ChkTarget := [
  ⟨0, 10000552254858030000000000, 0, 9999998804721620000000000, 10001992404826670000000000⟩,
  ⟨1, 9999805659081012041352308, 1, 10000000115703070000000000, 10001899271636200000000000⟩,
  ⟨2, 9999047246424144082704616, 2, 10000001323929550000000000, 10001829911543970000000000⟩,
  ⟨3, 9998287466455046124056924, 3, 10000000598365650000000000, 10001879662088540000000000⟩,
  ⟨4, 9997538959129268165409232, 4, 9999999100161150000000000, 10001978198827070000000000⟩,
  ⟨5, 9996798264971512248113848, 6, 9999998707427460000000000, 10002003004629930000000000⟩,
  ⟨6, 9996054315114604289466156, 7, 9999999806966600000000000, 10001926943110580000000000⟩,
  ⟨7, 9995299023971456330818464, 8, 10000001209196390000000000, 10001839482286390000000000⟩,
  ⟨8, 9994538471762888372170772, 9, 10000000880459180000000000, 10001858415013340000000000⟩,
  ⟨9, 9993786886955060413523080, 10, 9999999343893890000000000, 10001956120782710000000000⟩]

theorem chk_uranusL : allN Data.uranusL (targetUranus.map ChkTarget.L) = true := by decide +kernel

theorem small_uranusL : smallN Data.uranusL = true := by decide +kernel

theorem chk_uranusB : allN Data.uranusB (targetUranus.map ChkTarget.B) = true := by decide +kernel

theorem small_uranusB : smallN Data.uranusB = true := by decide +kernel

theorem chk_uranusR : allN Data.uranusR (targetUranus.map ChkTarget.R) = true := by decide +kernel

theorem small_uranusR : smallN Data.uranusR = true := by decide +kernel

theorem match_uranus : matchOk "Uranus" chkUranus targetUranus = true := by decide +kernel

theorem chk_uranus : ∀ e ∈ chkUranus, Meets e :=
  meets_of rfl rfl rfl match_uranus small_uranusL small_uranusB small_uranusR chk_uranusL chk_uranusB chk_uranusR

end Verif

import Verif.Lemmas.ChkEntry

/-!
# The check values of Saturn
-/

namespace Verif

/-- What is to be computed for the entries of `chkSaturn`. -/
def targetSaturn : List ChkTarget := [
  ⟨0, 10000079800387610000000000, 0, 9999995980158510000000000, 10000918384837150000000000⟩,
  ⟨1, 9997951854240598165409232, 4, 10000001927014090000000000, 10001006685319970000000000⟩,
  ⟨2, 9995821337058564289466156, 7, 10000001041565660000000000, 10000910430686390000000000⟩,
  ⟨3, 9993669635798472454875388, 11, 9999997085272130000000000, 10000976299949240000000000⟩,
  ⟨4, 9991555716121938578932312, 14, 10000004370350580000000000, 10000975710356290000000000⟩,
  ⟨5, 9989404527330874702989236, 17, 9999996206499120000000000, 10000906692128390000000000⟩,
  ⟨6, 9987274442847562868398468, 21, 10000001467718980000000000, 10001010656929940000000000⟩,
  ⟨7, 9985149844020998992455392, 24, 10000001785336970000000000, 10000918575995370000000000⟩,
  ⟨8, 9982993683555537157864624, 28, 9999996661334970000000000, 10000959271739400000000000⟩,
  ⟨9, 9980877826628433281921548, 31, 10000004353711390000000000, 10000986699394980000000000⟩]

theorem chk_saturnL : allN Data.saturnL (targetSaturn.map ChkTarget.L) = true := by decide +kernel

theorem small_saturnL : smallN Data.saturnL = true := by decide +kernel

theorem chk_saturnB : allN Data.saturnB (targetSaturn.map ChkTarget.B) = true := by decide +kernel

theorem small_saturnB : smallN Data.saturnB = true := by decide +kernel

theorem chk_saturnR : allN Data.saturnR (targetSaturn.map ChkTarget.R) = true := by decide +kernel

theorem small_saturnR : smallN Data.saturnR = true := by decide +kernel

theorem match_saturn : matchOk "Saturn" chkSaturn targetSaturn = true := by decide +kernel

theorem chk_saturn : ∀ e ∈ chkSaturn, Meets e :=
  meets_of rfl rfl rfl match_saturn small_saturnL small_saturnB small_saturnR chk_saturnL chk_saturnB chk_saturnR

end Verif

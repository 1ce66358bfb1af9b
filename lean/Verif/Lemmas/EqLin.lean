import Verif.Lemmas.LaneEquinox
import Verif.Data.Vsop.Earth

/-!
# The arguments of the nutation as linear functions of time

One set for each period of about a thousand years.
-/

namespace Verif

/-- Years from -1000 to 23. -/
def lin0 : Lin := ⟨299054820957829, 445267208993601982, 357623394342373, 35999058009864632,
  130169640963104, 477198463364544077, 95476285898810, 483202198743334369, 123832689316416, -1934236604522194⟩

/-- Years from 24 to 1000. -/
def lin1 : Lin := ⟨298254351534988, 445267168742158423, 357561350354852, 35999054889159038,
  133237457597548, 477198617787375440, 94031375655950, 483202126059714472, 124622932895519, -1934196849394592⟩

/-- Years from 1001 to 2024. -/
def lin2 : Lin := ⟨297870414728631, 445267129905735408, 357530755481254, 35999051792953240,
  134870370458768, 477198783246057887, 93311206739489, 483202053164563715, 125022415731481, -1934156399833916⟩

/-- Years from 2025 to 3000. -/
def lin3 : Lin := ⟨297874735599951, 445267092272065656, 357531119725664, 35999048721247237,
  134847858283658, 477198958109270047, 93320006430656, 483201980085682075, 125017201650629, -1934114859905101⟩

end Verif

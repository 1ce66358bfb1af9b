import Verif.Model.FloatSun

/-!
# `util.py` in binary64: what is not in the other modules
-/

namespace Verif

/-- `util.py` 98-112 `r_to_d`. -/
def rToDF (fl : ℚ → ℚ) (r : ℚ) : ℚ := fl (fl (r * 180) / piF)

end Verif

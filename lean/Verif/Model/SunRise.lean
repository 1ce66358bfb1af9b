import Verif.Model.Cronus

/-!
# `sun.rise`
-/

namespace Verif

/-- `sun.py` 55-56: the attributes a `Sun` object has after `__init__`. -/
def sunAttributes : List String := ["vsop"]

/-- The attribute `name` of an object with the attributes `attrs` (a list here; its value does not matter).
Used for lines 316-322 of sun.py. -/
def getAttribute (attrs : List String) (name : String) : Except PyErr Unit :=
  if name ∈ attrs then .ok () else .error (.AttributeError ("'Sun' object has no attribute '" ++ name ++ "'"))

/-- `sun.py` 258-322 `rise` with a whole day.  The `longitude` and `latitude` are not used by the code.  What is appended
to the lists of the object is the result. -/
noncomputable def sunRise (fl : ℚ → ℚ) (year month day : ℤ) (_longitude _latitude : ℝ) (gregorian : Bool) :
    Except PyErr (ℝ × ℝ × ℝ) := do
  match ← calToJd fl [.int year] [.int month] [(day : ℚ)] gregorian with
  | .arr _ => .error (.TypeError "array")
  | .scalar jd =>
    let (ra, dec) ← sunPlace jd (nutationInLongitude jd) (obliquity jd)
    for a in ["raList", "decList", "h0List"] do
      getAttribute sunAttributes a
    .ok (ra, dec, sunRstAltitude)

end Verif

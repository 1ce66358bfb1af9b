import Verif.Model.Calendar
import Verif.Model.FloatTrig

/-!
# `apps/check_perihelion.py` in binary64
-/

namespace Verif

/-- `apps/check_perihelion.py` 46-51: one pass of the loop; the line printed. -/
def perihelionLine (fl cosF : ℚ → ℚ) (sumF : List ℚ → ℚ) (exactJd exactR : ℚ) (i : ℤ) : Except PyErr (ℤ × ℚ) :=
  let daysPerHour := fl (1 / 24)
  let jd := fl (exactJd + fl (i * daysPerHour))
  match vsopDimensionF fl cosF sumF jd "Earth" "R" with
  | .error e => .error e
  | .ok R => .ok (i, fl (fl (exactR - R) * fl 149597870.691))

/-- `apps/check_perihelion.py` 38-51 `main`: the lines printed, each of them an integer and a float.  The result
of `load_params` is a parameter.  Simplified: the lines before an exception are dropped. -/
def checkPerihelion (fl cosF : ℚ → ℚ) (sumF : List ℚ → ℚ) (loadParams : Except PyErr Unit) :
    Except PyErr (List (ℤ × ℚ)) :=
  match loadParams with
  | .error e => .error e
  | .ok () =>
  match calToJd fl [.int 1991] [.int 7] [fl (6 + fl (fl 15.46 / 24))] true with
  | .error e => .error e
  | .ok (.arr _) => .error (.TypeError "unreachable: one date gives a scalar")
  | .ok (.scalar exactJd) =>
  match vsopDimensionF fl cosF sumF exactJd "Earth" "R" with
  | .error e => .error e
  | .ok exactR => ((List.range 48).map fun n : ℕ => (n : ℤ) - 24).mapM (perihelionLine fl cosF sumF exactJd exactR)

end Verif

import Mathlib.Algebra.Field.Defs
import Mathlib.Data.Rat.Defs

/-!
# The meaning of a parameter file, independently of the code

A file is a sequence of entries: a keyword followed by its one or two arguments.
-/

namespace Verif.Spec

/-- The eight settings. -/
inductive Key where
  | standardName | standardOffset | daylightName | daylightOffset | longitude | latitude
  | textPath | binaryPath
  deriving DecidableEq

/-- How a setting is written. -/
def Key.keyword : Key → String
  | .standardName => "standard_timezone_name"
  | .standardOffset => "standard_timezone_offset"
  | .daylightName => "daylight_timezone_name"
  | .daylightOffset => "daylight_timezone_offset"
  | .longitude => "longitude"
  | .latitude => "latitude"
  | .textPath => "vsop87d_text_path"
  | .binaryPath => "vsop87d_binary_path"

/-- The second argument of a numeric setting: accepted words (in lower case) and the factor they
stand for.  An offset is converted to days; east and south are negative. -/
def Key.units {K : Type} [Field K] : Key → List (String × K)
  | .standardOffset | .daylightOffset =>
    [("day", 1), ("days", 1), ("hour", 1 / 24), ("hours", 1 / 24), ("minute", 1 / 1440),
      ("minutes", 1 / 1440), ("second", 1 / 86400), ("seconds", 1 / 86400)]
  | .longitude => [("east", -1), ("west", 1)]
  | .latitude => [("north", 1), ("south", -1)]
  | _ => []

/-- Does the setting take a text (one argument) or a number with a unit (two arguments)? -/
def Key.isText : Key → Bool
  | .standardName | .daylightName | .textPath | .binaryPath => true
  | _ => false

/-- Is the number an angle (stored in radians)? -/
def Key.isAngle : Key → Bool
  | .longitude | .latitude => true
  | _ => false

/-- The value of a setting. -/
inductive Val (K : Type) where
  | unset
  | text (s : String)
  | num (x : K)

/-- An entry: a setting with its arguments. -/
structure Entry where
  key : Key
  args : List String

/-- The tokens of an entry. -/
def Entry.tokens (e : Entry) : List String := e.key.keyword :: e.args

/-- The value that an entry gives to its setting; `none` if it is malformed. -/
def Entry.value {K : Type} [Field K] (toRad : K → K) (parse : String → Option K) (e : Entry) :
    Option (Val K) :=
  match e.args with
  | [s] => if e.key.isText then some (.text s) else none
  | [s, u] =>
    match parse s, (e.key.units (K := K)).lookup u.toLower with
    | some x, some f =>
      if e.key.isText then none
      else some (.num (if e.key.isAngle then toRad (x * f) else x * f))
    | _, _ => none
  | _ => none

/-- The settings after a list of entries, given those before: the last entry for a setting counts. -/
def settings {K : Type} [Field K] (toRad : K → K) (parse : String → Option K) (before : Key → Val K)
    (es : List Entry) (k : Key) : Val K :=
  match es.reverse.find? (fun e => e.key = k) with
  | none => before k
  | some e => (e.value toRad parse).getD .unset

end Verif.Spec

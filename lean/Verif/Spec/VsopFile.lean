import Mathlib.Data.List.Basic
import Mathlib.Data.Nat.Digits.Defs

/-!
# The files of the VSOP87 distribution

The format of a file of the version D, as described in the notes of the distribution (columns counted from 1), and
the text database.  Nothing here refers to the model of the program.
-/

namespace Verif

/-- The columns `a` to `b` of the line are `f`. -/
def Columns (line : List Char) (a b : ℕ) (f : List Char) : Prop :=
  f.length = b + 1 - a ∧ ∀ i < f.length, line[a - 1 + i]? = f[i]?

/-- `s` at the right of a field of width `w`. -/
def rightIn (w : ℕ) (s : List Char) : List Char := List.replicate (w - s.length) ' ' ++ s

/-- `s` at the left of a field of width `w`. -/
def leftIn (w : ℕ) (s : List Char) : List Char := s ++ List.replicate (w - s.length) ' '

/-- A series: the coordinate (1 longitude, 2 latitude, 3 radius), the degree of the time, the terms (amplitude, phase
and frequency as written). -/
structure Series where
  ic : ℕ
  it : ℕ
  terms : List (List Char × List Char × List Char)

/-- A numeral which fits the field. -/
def Numeral (w : ℕ) (s : List Char) : Prop :=
  0 < s.length ∧ s.length ≤ w ∧ ∀ c ∈ s, c.isDigit = true ∨ c = '.' ∨ c = '-'

/-- The series can be written in the format. -/
def Series.Ok (s : Series) : Prop :=
  1 ≤ s.ic ∧ s.ic ≤ 3 ∧ s.it ≤ 5 ∧ s.terms.length < 10 ^ 7 ∧
    ∀ t ∈ s.terms, Numeral 18 t.1 ∧ Numeral 14 t.2.1 ∧ Numeral 20 t.2.2

/-- Header record. -/
def HeaderRecord (name : List Char) (s : Series) (line : List Char) : Prop :=
  Columns line 18 18 ['4'] ∧ Columns line 23 29 (leftIn 7 name) ∧ Columns line 42 42 (Nat.toDigits 10 s.ic) ∧
    Columns line 60 60 (Nat.toDigits 10 s.it) ∧ Columns line 61 67 (rightIn 7 (Nat.toDigits 10 s.terms.length))

/-- Term record. -/
def TermRecord (s : Series) (t : List Char × List Char × List Char) (line : List Char) : Prop :=
  Columns line 2 2 ['4'] ∧ Columns line 4 4 (Nat.toDigits 10 s.ic) ∧ Columns line 5 5 (Nat.toDigits 10 s.it) ∧
    Columns line 80 97 (rightIn 18 t.1) ∧ Columns line 98 111 (rightIn 14 t.2.1) ∧ Columns line 112 131 (rightIn 20 t.2.2)

/-- The file of a planet with the series given: a header record before the term records of each series. -/
inductive VsopFile (name : List Char) : List Series → List (List Char) → Prop
  | nil : VsopFile name [] []
  | cons {s : Series} {more : List Series} {head : List Char} {body tail : List (List Char)} :
      s.Ok → HeaderRecord name s head → List.Forall₂ (TermRecord s) s.terms body → VsopFile name more tail →
        VsopFile name (s :: more) (head :: body ++ tail)

/-- The eight planets: the name in the text database, the name in the files, the name of the file. -/
def vsopNames : List (String × List Char × String) :=
  [("Mercury", ['M', 'E', 'R', 'C', 'U', 'R', 'Y'], "VSOP87D.mer"), ("Venus", ['V', 'E', 'N', 'U', 'S'], "VSOP87D.ven"),
    ("Earth", ['E', 'A', 'R', 'T', 'H'], "VSOP87D.ear"), ("Mars", ['M', 'A', 'R', 'S'], "VSOP87D.mar"),
    ("Jupiter", ['J', 'U', 'P', 'I', 'T', 'E', 'R'], "VSOP87D.jup"),
    ("Saturn", ['S', 'A', 'T', 'U', 'R', 'N'], "VSOP87D.sat"), ("Uranus", ['U', 'R', 'A', 'N', 'U', 'S'], "VSOP87D.ura"),
    ("Neptune", ['N', 'E', 'P', 'T', 'U', 'N', 'E'], "VSOP87D.nep")]

/-- The letter of a coordinate. -/
def coordLetter (ic : ℕ) : String := if ic = 1 then "L" else if ic = 2 then "B" else "R"

/-- The text database: a line `planet coordinate degree count` and a line for each term. -/
def seriesText (planet : String) (s : Series) : List String :=
  (planet ++ " " ++ coordLetter s.ic ++ " " ++ toString s.it ++ " " ++ toString s.terms.length) ::
    s.terms.map fun t => String.ofList t.1 ++ " " ++ String.ofList t.2.1 ++ " " ++ String.ofList t.2.2

/-- The text database of all the planets. -/
def databaseText (data : String → List Series) : List String :=
  vsopNames.flatMap fun n => (data n.1).flatMap (seriesText n.1)

end Verif

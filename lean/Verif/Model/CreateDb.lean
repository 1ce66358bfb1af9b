import Verif.Model.Cgi

/-!
# `devutils/create_text_vsop_db.py`

The program which makes the text version of the VSOP87d database from the files of the distribution.
A file is the list of its lines, each with its newline (so no line is empty; `readline` gives the empty
string at the end only).  What is printed is a `Page`.
-/

namespace Verif

/-- A line of a file, as the list of its characters.
Used for lines 116 and 127 of devutils/create_text_vsop_db.py. -/
abbrev Line := List Char

/-- `s[i]`, `i ≥ 0`.  Used for lines 117, 121, 122, 128, 130 and 133 of devutils/create_text_vsop_db.py. -/
def lineAt (s : Line) (i : ℕ) : Except PyErr Char :=
  match s[i]? with
  | some c => .ok c
  | none => .error (.IndexError "string index out of range")

/-- `s[a:b]`, `0 ≤ a ≤ b`.  Used for lines 119, 123 and 136-138 of devutils/create_text_vsop_db.py. -/
def lineSlice (s : Line) (a b : ℕ) : Line := (s.drop a).take (b - a)

/-- The blanks of `str.strip` (ASCII ones).  Used for lines 119 and 136-138 of devutils/create_text_vsop_db.py. -/
def isBlank (c : Char) : Bool := c = ' ' ∨ c = '\n' ∨ c = '\t' ∨ c = '\r' ∨ c = '\x0b' ∨ c = '\x0c'

/-- `s.rstrip()`.  Used for line 119 of devutils/create_text_vsop_db.py. -/
def rstrip (s : Line) : Line := (s.reverse.dropWhile isBlank).reverse

/-- `string.strip(s)` of Python 2.  Used for lines 136-138 of devutils/create_text_vsop_db.py. -/
def strip2 (s : Line) : Line := rstrip (s.dropWhile isBlank)

/-- The functions of the module `string` the program uses: only `strip`.  Python 3 has none (`none`); Python 2
had the one which removes the blanks at both ends (`some strip2`).  Lines 136-138 of
devutils/create_text_vsop_db.py. -/
abbrev StringModule := Option (Line → Line)

/-- `string.strip(s)`: lines 136-138 of devutils/create_text_vsop_db.py. -/
def StringModule.strip (m : StringModule) (s : Line) : Except PyErr Line :=
  match m with
  | some f => .ok (f s)
  | none => .error (.AttributeError "module 'string' has no attribute 'strip'")

/-- `raise AssertionError`.  Used for lines 118, 120, 129, 132 and 135 of devutils/create_text_vsop_db.py. -/
def assertionError : PyErr := .Error "AssertionError" ""

/-- `coords[ic - 1]`, a tuple of three; `-1`, `-2` and `-3` count from the end.  Lines 111 and 124 of
devutils/create_text_vsop_db.py. -/
def coordName (ic : ℤ) : Except PyErr String :=
  if ic - 1 = 0 ∨ ic - 1 = -3 then .ok "L"
  else if ic - 1 = 1 ∨ ic - 1 = -2 then .ok "B"
  else if ic - 1 = 2 ∨ ic - 1 = -1 then .ok "R"
  else .error (.IndexError "tuple index out of range")

/-- The header record: lines 117-123 of devutils/create_text_vsop_db.py. -/
def readHeader (planet : String) (s : Line) : Except PyErr (ℤ × ℤ × ℤ) := do
  if (← lineAt s 17) ≠ '4' then throw assertionError
  if rstrip (lineSlice s 22 29) ≠ planet.toList.map Char.toUpper then throw assertionError
  let ic ← pyInt (String.ofList [← lineAt s 41])
  let it ← pyInt (String.ofList [← lineAt s 59])
  let nt ← pyInt (String.ofList (lineSlice s 60 67))
  return (ic, it, nt)

/-- A term record and what is printed for it: lines 127-139 of devutils/create_text_vsop_db.py. -/
def readTerm (m : StringModule) (ic it : ℤ) (s : Line) : Except PyErr String := do
  if (← lineAt s 1) ≠ '4' then throw assertionError
  let ict ← pyInt (String.ofList [← lineAt s 3])
  if ict ≠ ic then throw assertionError
  let itt ← pyInt (String.ofList [← lineAt s 4])
  if itt ≠ it then throw assertionError
  let A ← m.strip (lineSlice s 79 97)
  let B ← m.strip (lineSlice s 97 111)
  let C ← m.strip (lineSlice s 111 131)
  return String.ofList A ++ " " ++ String.ofList B ++ " " ++ String.ofList C

/-- `print(planet, coords[ic - 1], it, nt)`: line 124 of devutils/create_text_vsop_db.py. -/
def headerText (planet c : String) (it nt : ℤ) : String :=
  planet ++ " " ++ c ++ " " ++ toString it ++ " " ++ toString nt

/-- One more line printed before the others.  Used for lines 124 and 139 of devutils/create_text_vsop_db.py. -/
def Page.cons (s : String) (p : Page) : Page := ⟨s :: p.lines, p.exc⟩

/-- The loop over the lines of a file, with `k` term records of the series `ic`, `it` still to be read:
lines 116-139 of devutils/create_text_vsop_db.py.  At the end of the file `readline` gives the empty
string, which ends the outer loop, and of which `s[1]` is an `IndexError` in the inner one. -/
def convertLines (m : StringModule) (planet : String) : ℤ → ℤ → ℕ → List Line → Page
  | _, _, 0, [] => ⟨[], none⟩
  | _, _, _ + 1, [] => ⟨[], some (.IndexError "string index out of range")⟩
  | _, _, 0, s :: rest =>
    match readHeader planet s with
    | .error e => ⟨[], some e⟩
    | .ok (ic, it, nt) =>
      match coordName ic with
      | .error e => ⟨[], some e⟩
      | .ok c => Page.cons (headerText planet c it nt) (convertLines m planet ic it nt.toNat rest)
  | ic, it, k + 1, s :: rest =>
    match readTerm m ic it s with
    | .error e => ⟨[], some e⟩
    | .ok t => Page.cons t (convertLines m planet ic it k rest)

/-- The name of the file of a planet: line 115 of devutils/create_text_vsop_db.py. -/
def vsopFileName (planet : String) : String :=
  "VSOP87D." ++ String.ofList ((planet.toList.take 3).map Char.toLower)

/-- The loop over the planets: lines 114-140 of devutils/create_text_vsop_db.py.  `files` is the directory. -/
def convertPlanets (m : StringModule) (files : String → Option (List Line)) : List String → Page
  | [] => ⟨[], none⟩
  | planet :: more =>
    match files (vsopFileName planet) with
    | none => ⟨[], some (.Error "FileNotFoundError" (vsopFileName planet))⟩
    | some f =>
      let p := convertLines m planet 0 0 0 f
      match p.exc with
      | some e => ⟨p.lines, some e⟩
      | none =>
        let q := convertPlanets m files more
        ⟨p.lines ++ q.lines, q.exc⟩

/-- `planets`: lines 101-110 of devutils/create_text_vsop_db.py. -/
def vsopPlanets : List String := ["Mercury", "Venus", "Earth", "Mars", "Jupiter", "Saturn", "Uranus", "Neptune"]

/-- The program: lines 114-140 of devutils/create_text_vsop_db.py. -/
def createTextDb (m : StringModule) (files : String → Option (List Line)) : Page :=
  convertPlanets m files vsopPlanets

end Verif

import Verif.Model.Equinox
import Verif.Model.Dynamical

/-!
# `cgi/easter_cgi.py`, `cgi/solstice_cgi.py`, `apps/solstice.py`

A page is the list of the lines printed, and the exception which ended the script, if any.  As in the
other models, the floats of the calendar functions are given by a rounding `fl`, and the float passed
to them by the astronomical functions by an arbitrary function `rd`.
-/

namespace Verif

/-- The lines printed, and the exception raised.
Used for every `print` of cgi/easter_cgi.py lines 51-222, cgi/solstice_cgi.py lines 171-363 and apps/solstice.py lines 55-62. -/
structure Page where
  lines : List String
  exc : Option PyErr

/-- The decimal digits of an `int` literal, single underscores between digits allowed.
Used for lines 133 and 143 of cgi/easter_cgi.py. -/
def intDigits : Bool → ℕ → List Char → Option ℕ
  | last, acc, [] => if last then some acc else none
  | last, acc, c :: cs =>
    if c.isDigit then intDigits true (acc * 10 + (c.toNat - '0'.toNat)) cs
    else if c = '_' ∧ last then intDigits false acc cs
    else none

/-- Python `int(s)` of a string: blanks around, a sign, decimal digits.  (Simplified: digits and blanks
outside ASCII, and the limit of 4300 digits, are not modelled.)
Used for lines 133 and 143 of cgi/easter_cgi.py, 284 and 294 of cgi/solstice_cgi.py, 51-52 of apps/solstice.py. -/
def pyInt (s : String) : Except PyErr ℤ :=
  let blank := fun c : Char => c = ' ' ∨ c = '\n' ∨ c = '\t' ∨ c = '\r' ∨ c = '\x0b' ∨ c = '\x0c'
  let strip := fun l : List Char => l.dropWhile blank
  let l := (strip (strip s.toList).reverse).reverse
  let r := match l with
    | '-' :: cs => (intDigits false 0 cs).map fun n => -(n : ℤ)
    | '+' :: cs => (intDigits false 0 cs).map fun n => (n : ℤ)
    | cs => (intDigits false 0 cs).map fun n => (n : ℤ)
  match r with
  | some n => .ok n
  | none => .error (.ValueError ("invalid literal for int() with base 10: '" ++ s ++ "'"))

/-- A `cgi.FieldStorage`: the submitted fields with their (non-empty) values.
Used for line 47 of cgi/easter_cgi.py and line 167 of cgi/solstice_cgi.py. -/
abbrev Form := List (String × String)

/-- `name in form`.
Used for lines 132, 142, 163, 164 and 219 of cgi/easter_cgi.py, 283, 293 and 360 of cgi/solstice_cgi.py. -/
def Form.has (form : Form) (name : String) : Bool := form.any fun f => f.1 == name

/-- `form[name].value`: a field submitted several times is a list, which has no `value`.
Used for lines 133 and 143 of cgi/easter_cgi.py, 257, 261, 284 and 294 of cgi/solstice_cgi.py. -/
def Form.value (form : Form) (name : String) : Except PyErr String :=
  match form.filter fun f => f.1 == name with
  | [] => .error (.KeyError name)
  | [f] => .ok f.2
  | _ => .error (.AttributeError "'list' object has no attribute 'value'")

/-- `easter_cgi.py` 124-140, `solstice_cgi.py` 265-281: the years.  `thisYear` is the first field of
`time.localtime(time.time())`. -/
def formYears (form : Form) (thisYear : ℤ) : Except PyErr (ℤ × ℤ) := do
  let starting ← if form.has "starting_year" then do pyInt (← form.value "starting_year")
    else .ok (thisYear - 5)
  let ending ← if form.has "ending_year" then do pyInt (← form.value "ending_year")
    else .ok (starting + 10)
  .ok (starting, ending)

/-- `easter_cgi.py` 104-110, `solstice_cgi.py` 229-235 `display_error`, with the title. -/
def displayError (title msg : String) : List String :=
  ["<HEAD>", "<TITLE>" ++ title ++ "</TITLE>", "</HEAD>", "<BODY>", "<H1> " ++ msg ++ " </H1>", "</BODY>"]

/-- Python `range(a, b)`.
Used for line 188 of cgi/easter_cgi.py, line 329 of cgi/solstice_cgi.py and line 55 of apps/solstice.py. -/
def pyRange (a b : ℤ) : List ℤ := (List.range (b - a).toNat).map fun k : ℕ => a + k

/-! ### Easter -/

/-- `easter_cgi.py` 54-97 `display_form`. -/
def easterForm (thisYear : ℤ) : List String :=
  ["Content-type: text/html", "", "<HEAD>", "<TITLE>Astronomia Easter Parameters</TITLE>", "</HEAD>", "<BODY>",
   "<H1>Astronomia Easter Parameters</H1>",
   "<FORM action=\"http://astronomia.sourceforge.net/cgi-bin/easter-cgi.py\" method=\"post\">",
   "<TABLE>", "<TR>", "<TD><LABEL for=\"starting_year\">Starting year</LABEL></TD>",
   "<TD><INPUT type=\"text\" size=4 name=\"starting_year\" id=\"starting_year\" value=\"" ++
     toString (thisYear - 5) ++ "\"></TD>",
   "</TR>", "<TR>", "<TD><LABEL for=\"ending_year\">Ending year</LABEL></TD>",
   "<TD><INPUT type=\"text\" size=4 name=\"ending_year\" id=\"ending_year\" value=\"" ++
     toString (thisYear + 5) ++ "\"></TD>",
   "</TR>", "</TABLE>",
   "<INPUT type=\"checkbox\" checked name=\"gregorian_calendar\" value=\"1\"> Gregorian calendar<BR>",
   "<INPUT type=\"checkbox\" checked name=\"julian_calendar\" value=\"1\"> Julian calendar<BR>",
   "<INPUT type=\"submit\" value=\"Run\"> <INPUT type=\"reset\">",
   "<INPUT type=\"hidden\" name=\"results\" value=\"1\">", "</FORM>", "</BODY>"]

/-- `easter_cgi.py` 187, 190: not an f-string, so that the braces are printed as they are. -/
def easterCell (_month _day _year : ℤ) : String := "<TD><TT>{day:02}-{month:02}-{year:02}</TT></TD>"

/-- `easter_cgi.py` 183-191: the row of a year. -/
def easterRow (gregorian julian : Bool) (year : ℤ) : List String :=
  ["<TR>"] ++
  (if gregorian then [easterCell (easter1 year true).1 (easter1 year true).2 year] else []) ++
  (if julian then [easterCell (easter1 year false).1 (easter1 year false).2 year] else []) ++
  ["</TR>"]

/-- `easter_cgi.py` 118-206 `display_results`. -/
def easterResults (form : Form) (thisYear : ℤ) : Page :=
  let head := ["Content-type: text/html", "", "<HEAD>", "<TITLE>Astronomia Easter Results</TITLE>", "</HEAD>"]
  let title := "Astronomia Easter Error"
  match formYears form thisYear with
  | .error e => ⟨head, some e⟩
  | .ok (starting, ending) =>
    if ending < starting then
      ⟨head ++ displayError title "Ending year {ending_year} is earlier than starting year {starting_year}", none⟩
    else if starting < -4712 then
      ⟨head ++ displayError title "Starting year {starting_year} is earlier than 4713BC", none⟩
    else
      let julian := form.has "julian_calendar"
      let gregorian := form.has "gregorian_calendar"
      if !julian && !gregorian then ⟨head ++ displayError title "No calendar type selected", none⟩
      else
        ⟨head ++ ["<BODY>", "<H1>Astronomia Easter Results</H1>", "<TABLE BORDER>", "<TR>"] ++
          (if gregorian then ["<TH>Gregorian</TH>"] else []) ++ (if julian then ["<TH>Julian</TH>"] else []) ++
          ["</TR>"] ++ (pyRange starting (ending + 1)).flatMap (easterRow gregorian julian) ++
          ["</TABLE>", "</BODY>"], none⟩

/-- `easter_cgi.py` 213-216. -/
def easterCgi (form : Form) (thisYear : ℤ) : Page :=
  if form.has "results" then easterResults form thisYear else ⟨easterForm thisYear, none⟩

/-! ### Equinoxes and solstices -/

/-- `solstice_cgi.py` 51-77 `standard_zones`. -/
def standardZones : List String :=
  ["GMT-12", "GMT-11", "GMT-10", "GMT-9", "PST", "MST", "CST", "EST", "GMT-4", "GMT-3", "GMT-2", "GMT-1", "GMT",
   "GMT+1", "GMT+2", "GMT+3", "GMT+4", "GMT+5", "GMT+6", "GMT+7", "GMT+8", "GMT+9", "GMT+10", "GMT+11", "GMT+12"]

/-- `solstice_cgi.py` 79-105 `standard_zone_hours`. -/
def standardZoneHours : List (String × ℤ) :=
  [("GMT-12", -12), ("GMT-11", -11), ("GMT-10", -10), ("GMT-9", -9), ("PST", -8), ("MST", -7), ("CST", -6),
   ("EST", -5), ("GMT-4", -4), ("GMT-3", -3), ("GMT-2", -2), ("GMT-1", -1), ("GMT", 0), ("GMT+1", 1), ("GMT+2", 2),
   ("GMT+3", 3), ("GMT+4", 4), ("GMT+5", 5), ("GMT+6", 6), ("GMT+7", 7), ("GMT+8", 8), ("GMT+9", 9), ("GMT+10", 10),
   ("GMT+11", 11), ("GMT+12", 12)]

/-- `solstice_cgi.py` 107-133 `daylight_zones`. -/
def daylightZones : List String :=
  ["GMT-12", "GMT-11", "GMT-10", "GMT-9", "GMT-8", "PDT", "MDT", "CDT", "EDT", "GMT-3", "GMT-2", "GMT-1", "GMT",
   "GMT+1", "GMT+2", "GMT+3", "GMT+4", "GMT+5", "GMT+6", "GMT+7", "GMT+8", "GMT+9", "GMT+10", "GMT+11", "GMT+12"]

/-- `solstice_cgi.py` 135-161 `daylight_zone_hours`. -/
def daylightZoneHours : List (String × ℤ) :=
  [("GMT-12", -12), ("GMT-11", -11), ("GMT-10", -10), ("GMT-9", -9), ("GMT-8", -8), ("PDT", -7), ("MDT", -6),
   ("CDT", -5), ("EDT", -4), ("GMT-3", -3), ("GMT-2", -2), ("GMT-1", -1), ("GMT", 0), ("GMT+1", 1), ("GMT+2", 2),
   ("GMT+3", 3), ("GMT+4", 4), ("GMT+5", 5), ("GMT+6", 6), ("GMT+7", 7), ("GMT+8", 8), ("GMT+9", 9), ("GMT+10", 10),
   ("GMT+11", 11), ("GMT+12", 12)]

/-- A row of a `SELECT` (`solstice_cgi.py` 200-204, 211-215). -/
def option (dflt zone : String) : String :=
  if zone = dflt then "<OPTION SELECTED>" ++ zone ++ "</OPTION>" else "<OPTION>" ++ zone ++ "</OPTION>"

/-- `solstice_cgi.py` 173-225 `display_form`: the values of the years are not f-strings. -/
def solsticeForm : List String :=
  ["Content-type: text/html", "", "<HEAD>", "<TITLE>Astronomia Solstice Parameters</TITLE>", "</HEAD>", "<BODY>",
   "<H1>Astronomia Solstice Parameters</H1>",
   "<FORM action=\"http://astronomia.sourceforge.net/cgi-bin/solstice-cgi.py\" method=\"post\">",
   "<TABLE>", "<TR>", "<TD><LABEL for=\"starting_year\">Starting year</LABEL></TD>",
   "<TD><INPUT type=\"text\" size=4 name=\"starting_year\" id=\"starting_year\" value=\"{year-5}\"></TD>",
   "</TR>", "<TR>", "<TD><LABEL for=\"ending_year\">Ending year</LABEL></TD>",
   "<TD><INPUT type=\"text\" size=4 name=\"ending_year\" id=\"ending_year\" value=\"{year+5}\"></TD>",
   "</TR>", "<TR>", "<TD><LABEL for=\"standard_zone\">Standard Time Zone</LABEL></TD>",
   "<TD><SELECT name = \"standard_zone\">"] ++ standardZones.map (option "CST") ++
  ["</SELECT></TD>", "</TR>", "<TR>", "<TD><LABEL for=\"daylight_zone\">Daylight Time Zone</LABEL></TD>",
   "<TD><SELECT name = \"daylight_zone\">"] ++ daylightZones.map (option "CDT") ++
  ["</SELECT></TD>", "</TR>", "</TABLE>", "<INPUT type=\"submit\" value=\"Run\"> <INPUT type=\"reset\">",
   "<INPUT type=\"hidden\" name=\"results\" value=\"1\">", "</FORM>", "</BODY>"]

noncomputable section

/-- What the scripts depend on: the rounding, the float of a real result, and the conversion to local time
(`calendar.ut_to_lt`, a parameter so that the theorems also apply to a repaired version).
Used for lines 329-337 of cgi/solstice_cgi.py and lines 55-62 of apps/solstice.py. -/
structure LocalEnv where
  fl : ℚ → ℚ
  rd : ℝ → ℚ
  utToLt : Zones → ℚ → Except PyErr (ℚ × Option String)

/-- `solstice_cgi.py` 318-322, `apps/solstice.py` 57-61: the local time of a season, as a string. -/
def seasonTime (env : LocalEnv) (z : Zones) (year : ℤ) (season : String) : Except PyErr String := do
  let approx ← equinoxApprox seasonNames year season
  let jd ← equinox approx season (1 / 86400)
  let (lt, zone) ← env.utToLt z (dtToUt env.fl (env.rd jd))
  ltToStr env.fl lt (zone.getD "None") "second"

/-- A loop whose body prints some lines or raises.
Used for lines 188-196 of cgi/easter_cgi.py, 329-337 of cgi/solstice_cgi.py and 55-62 of apps/solstice.py. -/
def printAll {α : Type} (body : α → Page) : List α → Page
  | [] => ⟨[], none⟩
  | x :: xs =>
    let p := body x
    match p.exc with
    | some e => ⟨p.lines, some e⟩
    | none =>
      let q := printAll body xs
      ⟨p.lines ++ q.lines, q.exc⟩

/-- One `print` of a computed string.  Used for line 336 of cgi/solstice_cgi.py and line 62 of apps/solstice.py. -/
def printLine (s : Except PyErr String) (f : String → String) : Page :=
  match s with
  | .error e => ⟨[], some e⟩
  | .ok s => ⟨[f s], none⟩

/-- Lines before and after a part which may raise.  Used for lines 317-353 of cgi/solstice_cgi.py. -/
def Page.within (p : Page) (before after : List String) : Page :=
  match p.exc with
  | some e => ⟨before ++ p.lines, some e⟩
  | none => ⟨before ++ p.lines ++ after, none⟩

/-- `solstice_cgi.py` 315-324: the row of a year. -/
def solsticeRow (env : LocalEnv) (z : Zones) (year : ℤ) : Page :=
  (printAll (fun season => printLine (seasonTime env z year season) fun s => "<TD>" ++ s ++ "</TD>") seasonNames).within
    ["<TR>"] ["</TR>"]

/-- `solstice_cgi.py` 246-253: the zones.  `-hours / 24.0` is rounded. -/
def formZones (env : LocalEnv) (form : Form) : Except PyErr Zones := do
  let std ← form.value "standard_zone"
  match standardZoneHours.lookup std with
  | none => .error (.KeyError std)
  | some h =>
    let day ← form.value "daylight_zone"
    match daylightZoneHours.lookup day with
    | none => .error (.KeyError day)
    | some h' => .ok ⟨std, env.fl (-(h : ℚ) / 24), some day, some (env.fl (-(h' : ℚ) / 24))⟩

/-- `solstice_cgi.py` 242-341 `display_results`. -/
def solsticeResults (env : LocalEnv) (form : Form) (thisYear : ℤ) : Page :=
  match formZones env form with
  | .error e => ⟨[], some e⟩
  | .ok z =>
    let head := ["Content-type: text/html", "", "<HEAD>", "<TITLE>Astronomia Solstice Results</TITLE>", "</HEAD>"]
    let title := "Astronomia Solstice Error"
    match formYears form thisYear with
    | .error e => ⟨head, some e⟩
    | .ok (starting, ending) =>
      if ending < starting then
        ⟨head ++ displayError title "Ending year {ending_year} is earlier than starting year {starting_year}", none⟩
      else if starting < -4712 then
        ⟨head ++ displayError title "Starting year {starting_year} is earlier than 4713BC", none⟩
      else
        (printAll (solsticeRow env z) (pyRange starting (ending + 1))).within
          (head ++ ["<BODY>", "<H1>Astronomia Solstice Results</H1>", "<TABLE BORDER>", "<TR>",
            "<TH>Vernal Equinox</TH>", "<TH>Summer Solstice</TH>", "<TH>Autumnal Equinox</TH>",
            "<TH>Winter Solstice</TH>", "</TR>"])
          ["</TABLE>", "</BODY>"]

/-- `solstice_cgi.py` 348-351. -/
def solsticeCgi (env : LocalEnv) (form : Form) (thisYear : ℤ) : Page :=
  if form.has "results" then solsticeResults env form thisYear else ⟨solsticeForm, none⟩

/-- `apps/solstice.py` 37-61 `solstice`, with the zones set by `load_params`.  The arguments are strings;
`print(tab, season, text)` separates by blanks. -/
def solsticeApp (env : LocalEnv) (loadParams : Except PyErr Zones) (start : String) (stop : Option String) : Page :=
  match pyInt start with
  | .error e => ⟨[], some e⟩
  | .ok start =>
    match (show Except PyErr ℤ from match stop with
      | none => .ok start
      | some s => pyInt s) with
    | .error e => ⟨[], some e⟩
    | .ok stop =>
      match loadParams with
      | .error e => ⟨[], some e⟩
      | .ok z =>
        printAll (fun year => (printAll (fun season => printLine (seasonTime env z year season) fun s =>
          "     " ++ season ++ " " ++ s) seasonNames).within [toString year] []) (pyRange start (stop + 1))

end
end Verif

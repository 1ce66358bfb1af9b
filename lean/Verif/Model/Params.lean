import Verif.Model.Py
import Mathlib.Algebra.Field.Defs

/-!
# `util.load_params` and `globals.py`

The numbers are taken in a field `K`; `parse` is Python's `float(str)` (`none` for `ValueError`) and
`toRad` is `d_to_r`.  Both are parameters, so that the theorems hold for every choice.
-/

namespace Verif

/-! ### The lexer

`load_params` uses the non-POSIX `shlex.shlex` of the Python standard library with `wordchars`
extended by dot, dash, slash, backslash and colon (`util.py` 288-290).  The input is the text of the file after universal-newline
translation. -/

/-- `lex.wordchars`: `util.py` 290 and the default of `shlex`. -/
def isWordChar (c : Char) : Bool :=
  c.isAlphanum || c == '_' || c == '.' || c == '-' || c == '/' || c == '\\' || c == ':'

/-- `lex.whitespace`.  Used for line 288 of util.py. -/
def isLexSpace (c : Char) : Bool := c == ' ' || c == '\t' || c == '\r' || c == '\n'

/-- `lex.quotes`.  Used for line 288 of util.py. -/
def isLexQuote (c : Char) : Bool := c == '\'' || c == '"'

/-- The lexer state: between tokens, inside a word, inside quotes, or skipping a comment (after
which a word that the comment interrupted is continued: in non-POSIX mode the state stays `'a'`).
Used for line 288 of util.py (the text modelled is CPython's Lib/shlex.py). -/
inductive LexMode where
  | space
  | word (t : List Char)
  | quote (q : Char) (t : List Char)
  | comment (interrupted : Option (List Char))

/-- All tokens up to the end of the file or up to the lexical error, `shlex.read_token` called
repeatedly (`shlex.py`, Python 3.11).  A character that is in no class is a token by itself; the
push-back of such a character is modelled by emitting it at once. -/
def lexGo : LexMode → List Char → List String × Option PyErr
  | .space, [] => ([], none)
  | .space, c :: cs =>
    if isLexSpace c then lexGo .space cs
    else if c = '#' then lexGo (.comment none) cs
    else if isWordChar c then lexGo (.word [c]) cs
    else if isLexQuote c then lexGo (.quote c [c]) cs
    else let r := lexGo .space cs; (String.ofList [c] :: r.1, r.2)
  | .word t, [] => ([String.ofList t], none)
  | .word t, c :: cs =>
    if isLexSpace c then let r := lexGo .space cs; (String.ofList t :: r.1, r.2)
    else if c = '#' then lexGo (.comment (some t)) cs
    else if isWordChar c || isLexQuote c then lexGo (.word (t ++ [c])) cs
    else let r := lexGo .space cs; (String.ofList t :: String.ofList [c] :: r.1, r.2)
  | .quote _ _, [] => ([], some (.ValueError "No closing quotation"))
  | .quote q t, c :: cs =>
    if c = q then let r := lexGo .space cs; (String.ofList (t ++ [c]) :: r.1, r.2)
    else lexGo (.quote q (t ++ [c])) cs
  | .comment none, [] => ([], none)
  | .comment (some t), [] => ([String.ofList t], none)
  | .comment none, c :: cs => if c = '\n' then lexGo .space cs else lexGo (.comment none) cs
  | .comment (some t), c :: cs =>
    if c = '\n' then lexGo (.word t) cs else lexGo (.comment (some t)) cs

/-- The token stream of a file.  Used for lines 288-291 of util.py. -/
def lexFile (text : String) : List String × Option PyErr := lexGo .space text.toList

/-! ### The settings -/

/-- `globals.py` 31-68: the settings that `load_params` assigns, with their defaults.  The two VSOP
paths are not defined in `globals.py`; `none` means that the attribute does not exist. -/
structure Globals (K : Type) [Zero K] where
  standardTimezoneName : String := "UT"
  standardTimezoneOffset : K := 0
  daylightTimezoneName : Option String := none
  daylightTimezoneOffset : Option K := none
  longitude : K := 0
  latitude : K := 0
  vsop87dTextPath : Option String := none
  vsop87dBinaryPath : Option String := none

/-- `lex.get_token()`: the next token; `""` at the end of the file, forever; or the lexical error.
Used for lines 291-357 of util.py. -/
def getToken : List String × Option PyErr → Except PyErr (String × (List String × Option PyErr))
  | ([], none) => .ok ("", ([], none))
  | ([], some e) => .error e
  | (t :: ts, e) => .ok (t, (ts, e))

section load
variable {K : Type} [Field K] (toRad : K → K) (parse : String → Option K)

/-- `float(lex.get_token())`.  Used for lines 295, 318, 339 and 347 of util.py. -/
def getFloat (st : List String × Option PyErr) :
    Except PyErr (K × (List String × Option PyErr)) := do
  let (t, st) ← getToken st
  match parse t with
  | none => .error (.ValueError "could not convert string to float")
  | some x => .ok (x, st)

/-- `util.py` 295-314 and 318-337: the number and unit of a time zone offset.  (Both blocks raise the
same message.)  `lower` is Python's `str.lower`, here on ASCII letters. -/
def getOffset (st : List String × Option PyErr) :
    Except PyErr (K × (List String × Option PyErr)) := do
  let (offset, st) ← getFloat parse st
  let (unit, st) ← getToken st
  let unit := unit.toLower
  if unit ∉ ["day", "days", "hour", "hours", "minute", "minutes", "second", "seconds"] then
    .error (.Error "util" "bad value for standard_timezone_offset units")
  else if unit ∈ ["hour", "hours"] then .ok (offset / 24, st)
  else if unit ∈ ["minute", "minutes"] then .ok (offset / 1440, st)
  else if unit ∈ ["second", "seconds"] then .ok (offset / 86400, st)
  else .ok (offset, st)

/-- What one turn of the loop does: leave the loop, raise, or go on.  Used for lines 291-359 of util.py. -/
inductive LoadStep (K : Type) [Zero K] where
  | done (g : Globals K)
  | raise (g : Globals K) (e : PyErr)
  | next (g : Globals K) (st : List String × Option PyErr)

/-- `util.py` 339-345. -/
def getLongitude (st : List String × Option PyErr) :
    Except PyErr (K × (List String × Option PyErr)) := do
  let (longitude, st) ← getFloat parse st
  let (direction, st) ← getToken st
  let direction := direction.toLower
  if direction ∉ ["east", "west"] then
    .error (.Error "util" "longitude direction must be \"west\" or \"east\"")
  else .ok (toRad (if direction = "east" then -longitude else longitude), st)

/-- `util.py` 347-353. -/
def getLatitude (st : List String × Option PyErr) :
    Except PyErr (K × (List String × Option PyErr)) := do
  let (latitude, st) ← getFloat parse st
  let (direction, st) ← getToken st
  let direction := direction.toLower
  if direction ∉ ["north", "south"] then
    .error (.Error "util" "latitude direction must be \"north\" or \"south\"")
  else .ok (toRad (if direction = "south" then -latitude else latitude), st)

/-- An assignment to a global after its value has been read.  Used for lines 293-357 of util.py. -/
def assign {α : Type} (g : Globals K) (set : α → Globals K) :
    Except PyErr (α × (List String × Option PyErr)) → LoadStep K
  | .ok (v, st) => .next (set v) st
  | .error e => .raise g e

/-- `util.py` 291-359: one turn of `while token := lex.get_token()`. -/
def loadStep (g : Globals K) (st : List String × Option PyErr) : LoadStep K :=
  match getToken st with
  | .error e => .raise g e
  | .ok (token, st) =>
    if token = "" then .done g
    else if token = "standard_timezone_name" then
      assign g (fun v => { g with standardTimezoneName := v }) (getToken st)
    else if token = "standard_timezone_offset" then
      assign g (fun v => { g with standardTimezoneOffset := v }) (getOffset parse st)
    else if token = "daylight_timezone_name" then
      assign g (fun v => { g with daylightTimezoneName := some v }) (getToken st)
    else if token = "daylight_timezone_offset" then
      assign g (fun v => { g with daylightTimezoneOffset := some v }) (getOffset parse st)
    else if token = "longitude" then
      assign g (fun v => { g with longitude := v }) (getLongitude toRad parse st)
    else if token = "latitude" then
      assign g (fun v => { g with latitude := v }) (getLatitude toRad parse st)
    else if token = "vsop87d_text_path" then
      assign g (fun v => { g with vsop87dTextPath := some v }) (getToken st)
    else if token = "vsop87d_binary_path" then
      assign g (fun v => { g with vsop87dBinaryPath := some v }) (getToken st)
    else .raise g (.Error "util" "unknown token {token} at line {lex.lineno} in param file")

/-- The loop, with a bound on the number of turns; `loadTokens` gives one turn per token and one
more, which is always enough because every turn consumes a token (`loadRun_enough`).
Used for lines 291-359 of util.py. -/
def loadRun : ℕ → Globals K → List String × Option PyErr → Globals K × Except PyErr Unit
  | 0, g, _ => (g, .error (.Error "model" "out of fuel"))
  | n + 1, g, st =>
    match loadStep toRad parse g st with
    | .done g => (g, .ok ())
    | .raise g e => (g, .error e)
    | .next g st => loadRun n g st

/-- `util.py` 288-360 on a token stream: the settings afterwards and the outcome. -/
def loadTokens (g : Globals K) (st : List String × Option PyErr) : Globals K × Except PyErr Unit :=
  loadRun toRad parse (st.1.length + 1) g st

end load

/-! ### Finding the file -/

/-- `util.py` 231-277: the file opened, given which files exist, and how many warnings are printed.
`first` is the value of `ASTRONOMIA_PARAMS` or `astronomia_params.txt`; the others are the three
fallbacks (joined with the package directory). -/
def findParams (present : String → Bool) (first share params pkg : String) : String × ℕ :=
  if present first then (first, 0)
  else if present share then (share, 1)
  else if present params then (params, 2)
  else (pkg, 3)

/-- `util.py` 219-360: `read` gives the text of the files that can be opened (and `exists` is the same
predicate: a file that exists but cannot be opened is not modelled). -/
def loadParams {K : Type} [Field K] (toRad : K → K) (parse : String → Option K)
    (read : String → Option String) (env : Option String) (share params pkg : String)
    (g : Globals K) : Globals K × Except PyErr Unit :=
  let fname := (findParams (fun f => (read f).isSome) (env.getD "astronomia_params.txt")
    share params pkg).1
  match read fname with
  | none => (g, .error (.Error "util" "\nUnable to open param file. Either set ASTRONOMIA_PARAMS correctly or create\nastronomia_params.txt in the current directory"))
  | some text => loadTokens toRad parse g (lexFile text)

end Verif

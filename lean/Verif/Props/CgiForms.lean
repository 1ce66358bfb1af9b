import Verif.Props.EasterCgi
import Verif.Props.Solstice

/-!
C57, C58: what a browser sends when the forms of the two CGI programs are submitted as they are displayed.
The specification is a reader of HTML forms, independent of the programs: text and hidden fields are sent with their values,
check boxes when they are checked, selections with the selected option, buttons without a name are not sent.
-/

namespace Verif

/-- What follows the first occurrence of a text. -/
def afterText (pat : List Char) : List Char → Option (List Char)
  | [] => none
  | c :: cs => if pat.isPrefixOf (c :: cs) then some ((c :: cs).drop pat.length) else afterText pat cs

/-- The value of an attribute, between quotation marks; blanks around the equals sign are allowed. -/
def htmlAttr (key : String) (line : List Char) : Option (List Char) :=
  match afterText (' ' :: key.toList) line with
  | none => none
  | some r =>
    match r.dropWhile (· = ' ') with
    | '=' :: r =>
      match r.dropWhile (· = ' ') with
      | '"' :: r => some (r.takeWhile (· ≠ '"'))
      | _ => none
    | _ => none

/-- One line of a form: the selection list it belongs to afterwards, and the field sent for it. -/
def formLine (sel : Option (List Char)) (line : List Char) : Option (List Char) × List (List Char × List Char) :=
  if (afterText "<INPUT".toList line).isSome then
    match htmlAttr "name" line, htmlAttr "value" line with
    | some n, some v =>
      if htmlAttr "type" line = some "checkbox".toList ∧ (afterText " checked".toList line).isNone then (sel, [])
      else (sel, [(n, v)])
    | _, _ => (sel, [])
  else if (afterText "<SELECT".toList line).isSome then (htmlAttr "name" line, [])
  else if (afterText "</SELECT".toList line).isSome then (none, [])
  else match sel, afterText "<OPTION SELECTED>".toList line with
    | some n, some r => (sel, [(n, r.takeWhile (· ≠ '<'))])
    | _, _ => (sel, [])

/-- The fields sent when the page is submitted as it is displayed. -/
def submitted (sel : Option (List Char)) : List String → List (List Char × List Char)
  | [] => []
  | l :: ls => (formLine sel l.toList).2 ++ submitted (formLine sel l.toList).1 ls

/-- The options offered by the selection list of the given name. -/
def offered (name : String) (sel : Bool) : List String → List (List Char)
  | [] => []
  | l :: ls =>
    if (afterText "<SELECT".toList l.toList).isSome then
      offered name (htmlAttr "name" l.toList = some name.toList) ls
    else if (afterText "</SELECT".toList l.toList).isSome then offered name false ls
    else match sel, afterText "<OPTION".toList l.toList with
      | true, some r => ((r.dropWhile (· ≠ '>')).drop 1).takeWhile (· ≠ '<') :: offered name sel ls
      | _, _ => offered name sel ls

/-- The text of an integer contains no quotation mark. -/
theorem int_text_no_quote (n : ℤ) (rest : List Char) :
    ((toString n).toList ++ '"' :: rest).takeWhile (· ≠ '"') = (toString n).toList := by
  have h : ∀ c ∈ (toString n).toList, (decide (c ≠ '"')) = true := by
    intro c hc
    rcases toString_int_chars n c hc with rfl | hd
    · decide
    · refine decide_eq_true fun e => ?_
      subst e
      exact absurd hd (by decide)
  rw [List.takeWhile_append_of_pos h]
  simp

theorem text_field_start (t r : List Char) :
    formLine none ("<TD><INPUT type=\"text\" size=4 name=\"starting_year\" id=\"starting_year\" value=\"".toList ++
      (t ++ '"' :: r)) = (none, [("starting_year".toList, (t ++ '"' :: r).takeWhile (· ≠ '"'))]) := rfl

theorem text_field_end (t r : List Char) :
    formLine none ("<TD><INPUT type=\"text\" size=4 name=\"ending_year\" id=\"ending_year\" value=\"".toList ++
      (t ++ '"' :: r)) = (none, [("ending_year".toList, (t ++ '"' :: r).takeWhile (· ≠ '"'))]) := rfl

/-- C57: the easter form submitted as it is displayed sends the years from five years ago to five years ahead, both
calendars and the mark which asks for the results. -/
theorem easter_form_submitted (now : ℤ) :
    submitted none (easterCgi [] now).lines =
      (easterDefault now).map fun p => (p.1.toList, p.2.toList) := by
  have q : "\"></TD>".toList = '"' :: "></TD>".toList := rfl
  have hs : ∀ n : ℤ, formLine none ("<TD><INPUT type=\"text\" size=4 name=\"starting_year\" id=\"starting_year\" value=\"" ++
      toString n ++ "\"></TD>").toList = (none, [("starting_year".toList, (toString n).toList)]) := by
    intro n
    rw [String.toList_append, String.toList_append, List.append_assoc, q, text_field_start, int_text_no_quote]
  have he : ∀ n : ℤ, formLine none ("<TD><INPUT type=\"text\" size=4 name=\"ending_year\" id=\"ending_year\" value=\"" ++
      toString n ++ "\"></TD>").toList = (none, [("ending_year".toList, (toString n).toList)]) := by
    intro n
    rw [String.toList_append, String.toList_append, List.append_assoc, q, text_field_end, int_text_no_quote]
  have split : ∀ (a b : List String) (s : String) (p : List Char × List Char), formLine none s.toList = (none, [p]) →
      (∀ l : List String, submitted none (a ++ l) = submitted none l) →
      submitted none (a ++ s :: b) = p :: submitted none b := by
    intro a b s p h1 h2
    rw [h2]
    simp only [submitted, h1, List.singleton_append]
  show submitted none (["Content-type: text/html", "", "<HEAD>", "<TITLE>Astronomia Easter Parameters</TITLE>", "</HEAD>",
    "<BODY>", "<H1>Astronomia Easter Parameters</H1>",
   "<FORM action=\"http://astronomia.sourceforge.net/cgi-bin/easter-cgi.py\" method=\"post\">",
   "<TABLE>", "<TR>", "<TD><LABEL for=\"starting_year\">Starting year</LABEL></TD>"] ++ _ ::
   (["</TR>", "<TR>", "<TD><LABEL for=\"ending_year\">Ending year</LABEL></TD>"] ++ _ ::
    ["</TR>", "</TABLE>",
   "<INPUT type=\"checkbox\" checked name=\"gregorian_calendar\" value=\"1\"> Gregorian calendar<BR>",
   "<INPUT type=\"checkbox\" checked name=\"julian_calendar\" value=\"1\"> Julian calendar<BR>",
   "<INPUT type=\"submit\" value=\"Run\"> <INPUT type=\"reset\">",
   "<INPUT type=\"hidden\" name=\"results\" value=\"1\">", "</FORM>", "</BODY>"])) = _
  rw [split _ _ _ _ (hs (now - 5)) (fun _ => rfl), split _ _ _ _ (he (now + 5)) (fun _ => rfl)]
  rfl

/-- The starting year of the form displayed in 2024. -/
example : ("starting_year".toList, "2019".toList) ∈ submitted none (easterCgi [] 2024).lines := by
  rw [easter_form_submitted]; decide

/-- C58: the solstice form submitted as it is displayed sends the texts `{year-5}` and `{year+5}` and the zones CST and
CDT. -/
theorem solstice_form_submitted (env : LocalEnv) (now : ℤ) :
    submitted none (solsticeCgi env [] now).lines =
      solsticeDefault.map fun p => (p.1.toList, p.2.toList) := by
  show submitted none solsticeForm = _
  decide +kernel

/-- C58: the form offers every zone of the tables of hours, and no other, in the order of the hours. -/
theorem solstice_form_zones (env : LocalEnv) (now : ℤ) :
    offered "standard_zone" false (solsticeCgi env [] now).lines = standardZoneHours.map (·.1.toList) ∧
    offered "daylight_zone" false (solsticeCgi env [] now).lines = daylightZoneHours.map (·.1.toList) := by
  show offered _ _ solsticeForm = _ ∧ offered _ _ solsticeForm = _
  decide +kernel

end Verif

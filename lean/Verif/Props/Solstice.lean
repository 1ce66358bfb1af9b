import Verif.Props.EasterCgi
import Verif.Props.EquinoxYear
import Verif.Props.LocalTime
import Verif.Lemmas.Cronus

/-!
# C58: the page of equinoxes and solstices; C69: `apps/solstice.py`
-/

namespace Verif
open Real

/-! ### The zones -/

/-- The name of a zone without letters of its own. -/
def gmtName (h : ℤ) : String :=
  if h = 0 then "GMT" else if 0 < h then "GMT+" ++ toString h else "GMT" ++ toString h

/-- C58: every standard zone offered has its hours, from -12 to 12 in order. -/
theorem standard_zones_hours : standardZones.map (fun z => standardZoneHours.lookup z) =
    (List.range 25).map fun k : ℕ => some ((k : ℤ) - 12) := by decide +kernel

/-- C58: every daylight zone offered has its hours, from -12 to 12 in order. -/
theorem daylight_zones_hours : daylightZones.map (fun z => daylightZoneHours.lookup z) =
    (List.range 25).map fun k : ℕ => some ((k : ℤ) - 12) := by decide +kernel

/-- C58: the names say the hours; the American zones have theirs. -/
theorem zone_names : (∀ p ∈ standardZoneHours, p.1 = gmtName p.2 ∨
      p ∈ [("PST", -8), ("MST", -7), ("CST", -6), ("EST", (-5 : ℤ))]) ∧
    (∀ p ∈ daylightZoneHours, p.1 = gmtName p.2 ∨ p ∈ [("PDT", -7), ("MDT", -6), ("CDT", -5), ("EDT", (-4 : ℤ))]) ∧
    (∀ p ∈ standardZoneHours, p.1 ∈ standardZones) ∧ (∀ p ∈ daylightZoneHours, p.1 ∈ daylightZones) := by
  decide +kernel

/-- C58: the zones chosen are those used, with minus their hours as offsets in days. -/
theorem form_zones_given (env : LocalEnv) {form : Form} {s d : String} {h h' : ℤ}
    (hs : form.value "standard_zone" = .ok s) (hd : form.value "daylight_zone" = .ok d)
    (h1 : standardZoneHours.lookup s = some h) (h2 : daylightZoneHours.lookup d = some h') :
    formZones env form = .ok ⟨s, env.fl (-(h : ℚ) / 24), some d, some (env.fl (-(h' : ℚ) / 24))⟩ := by
  unfold formZones
  simp only [bind, Except.bind, hs, hd, h1, h2]

/-- C58: local standard time is universal time plus the hours of the zone.  (`ut_to_lt` subtracts the offset; the
arithmetic exact.) -/
theorem zone_direction {env : LocalEnv} (hf : env.fl = fun x => x) {form : Form} {z : Zones} {k : ℕ} (hk : k < 25)
    (hs : form.value "standard_zone" = .ok (standardZones[k]'hk)) (hz : formZones env form = .ok z) (ut : ℚ) :
    ut - z.standardOffset = ut + ((k : ℚ) - 12) / 24 := by
  have hl : standardZoneHours.lookup (standardZones[k]'hk) = some ((k : ℤ) - 12) := by
    have := congrArg (fun l => l[k]?) standard_zones_hours
    simp only [List.getElem?_map] at this
    rw [List.getElem?_eq_getElem (show k < standardZones.length from hk), List.getElem?_range hk] at this
    exact Option.some.inj this
  unfold formZones at hz
  simp only [bind, Except.bind, hs, hl] at hz
  split at hz
  · cases hz
  split at hz
  · cases hz
  cases hz
  simp only [hf]
  push_cast
  ring

/-- C58: a zone which is missing or not offered ends the program before anything is printed. -/
theorem solstice_cgi_no_zone (env : LocalEnv) {form : Form} (now : ℤ) (hr : form.has "results" = true)
    (h : form.has "standard_zone" = false ∨ form.has "daylight_zone" = false ∨
      (∃ z, form.value "standard_zone" = .ok z ∧ z ∉ standardZones) ∨
      (∃ z, form.value "daylight_zone" = .ok z ∧ z ∉ daylightZones)) :
    (solsticeCgi env form now).lines = [] ∧ (solsticeCgi env form now).exc.isSome := by
  have key : ∃ e, formZones env form = .error e := by
    unfold formZones
    simp only [bind, Except.bind]
    split
    · exact ⟨_, rfl⟩
    rename_i s hs
    split
    · exact ⟨_, rfl⟩
    rename_i a ha
    split
    · exact ⟨_, rfl⟩
    rename_i d hd
    split
    · exact ⟨_, rfl⟩
    rename_i b hb
    exfalso
    have mem : ∀ {t : List (String × ℤ)} {x : String} {n : ℤ}, t.lookup x = some n → (x, n) ∈ t := by
      intro t x n
      induction t with
      | nil => intro h; cases h
      | cons p t ih =>
        obtain ⟨y, m⟩ := p
        intro h
        rw [List.lookup_cons] at h
        split at h
        · rename_i hxy
          have : x = y := by simpa using hxy
          cases h; rw [this]; exact List.mem_cons_self
        · exact List.mem_cons_of_mem _ (ih h)
    rcases h with h | h | ⟨z, hz, hn⟩ | ⟨z, hz, hn⟩
    · rw [value_of_not_has h] at hs; cases hs
    · rw [value_of_not_has h] at hd; cases hd
    · rw [hs] at hz; cases hz
      exact hn (zone_names.2.2.1 _ (mem ha))
    · rw [hd] at hz; cases hz
      exact hn (zone_names.2.2.2 _ (mem hb))
  obtain ⟨e, he⟩ := key
  unfold solsticeCgi
  rw [if_pos hr]
  unfold solsticeResults
  rw [he]
  exact ⟨rfl, rfl⟩

/-! ### Loops of prints -/

theorem printAll_ok {α : Type} {body : α → Page} {l : List α} (h : ∀ x ∈ l, (body x).exc = none) :
    printAll body l = ⟨l.flatMap fun x => (body x).lines, none⟩ := by
  induction l with
  | nil => rfl
  | cons x l ih =>
    unfold printAll
    rw [ih fun y hy => h y (List.mem_cons_of_mem _ hy)]
    simp only [h x List.mem_cons_self, List.flatMap_cons]

theorem printAll_raises {α : Type} {body : α → Page} {x : α} {l : List α} {p : List String} {e : PyErr}
    (h : body x = ⟨p, some e⟩) : printAll body (x :: l) = ⟨p, some e⟩ := by
  unfold printAll
  rw [h]

/-- With the conversion to local time of the code, there is no time of any season. -/
theorem seasonTime_actual {env : LocalEnv} {tz : Stamp → ℤ} (ha : ∀ z, env.utToLt z = utToLt env.fl tz z) (z : Zones)
    (y : ℤ) (season : String) : ∃ e, seasonTime env z y season = .error e := by
  unfold seasonTime
  simp only [bind, Except.bind]
  split
  · exact ⟨_, rfl⟩
  split
  · exact ⟨_, rfl⟩
  rename_i jd _
  obtain ⟨err, he⟩ := ut_to_lt_never_returns env.fl tz z (dtToUt env.fl (env.rd jd))
  rw [ha, he]
  exact ⟨_, rfl⟩

theorem pyRange_cons {a b : ℤ} (h : a < b) : ∃ l, pyRange a b = a :: l := by
  unfold pyRange
  have : (b - a).toNat = ((b - a).toNat - 1) + 1 := by omega
  rw [this, List.range_succ_eq_map]
  simp

/-- C58, the claim that a valid submission gives a table is false: with the conversion to local time of the code, every
submission which passes the checks is ended by an exception after the start of the first row; there is no cell. -/
theorem solstice_cgi_raises {env : LocalEnv} {tz : Stamp → ℤ} (ha : ∀ z, env.utToLt z = utToLt env.fl tz z)
    {form : Form} {now s e : ℤ} {z : Zones} (hr : form.has "results" = true) (hz : formZones env form = .ok z)
    (hy : formYears form now = .ok (s, e)) (h1 : s ≤ e) (h2 : -4712 ≤ s) :
    (solsticeCgi env form now).exc.isSome ∧
      (solsticeCgi env form now).lines = ["Content-type: text/html", "", "<HEAD>",
        "<TITLE>Astronomia Solstice Results</TITLE>", "</HEAD>", "<BODY>", "<H1>Astronomia Solstice Results</H1>",
        "<TABLE BORDER>", "<TR>", "<TH>Vernal Equinox</TH>", "<TH>Summer Solstice</TH>", "<TH>Autumnal Equinox</TH>",
        "<TH>Winter Solstice</TH>", "</TR>", "<TR>"] := by
  obtain ⟨l, hl⟩ := pyRange_cons (show s < e + 1 by omega)
  obtain ⟨err, he⟩ := seasonTime_actual ha z s "spring"
  have hrow : solsticeRow env z s = ⟨["<TR>"], some err⟩ := by
    unfold solsticeRow
    have : printAll (fun season => printLine (seasonTime env z s season) fun s => "<TD>" ++ s ++ "</TD>") seasonNames =
        ⟨[], some err⟩ := printAll_raises (by simp only [he]; rfl)
    rw [this]; rfl
  unfold solsticeCgi
  rw [if_pos hr]
  unfold solsticeResults
  simp only [hz, hy]
  rw [if_neg (by omega), if_neg (by omega), hl, printAll_raises hrow]
  exact ⟨rfl, rfl⟩

/-- The form submitted as it is displayed. -/
def solsticeDefault : Form :=
  [("starting_year", "{year-5}"), ("ending_year", "{year+5}"), ("standard_zone", "CST"), ("daylight_zone", "CDT"),
   ("results", "1")]

/-- C58: the form displayed, submitted unchanged, raises `ValueError` before the body: its years are not numbers. -/
theorem solstice_cgi_default (env : LocalEnv) (now : ℤ) :
    (∃ m, (solsticeCgi env solsticeDefault now).exc = some (.ValueError m)) ∧
    "<BODY>" ∉ (solsticeCgi env solsticeDefault now).lines ∧
    (∀ v ∈ ["{year-5}", "{year+5}"], ∃ n ∈ ["starting_year", "ending_year"],
      "<TD><INPUT type=\"text\" size=4 name=\"" ++ n ++ "\" id=\"" ++ n ++ "\" value=\"" ++ v ++ "\"></TD>" ∈
        (solsticeCgi env [] now).lines) := by
  have hz := form_zones_given env (form := solsticeDefault) (s := "CST") (d := "CDT") (h := -6) (h' := -5) rfl rfl rfl rfl
  have hy : formYears solsticeDefault now =
      .error (.ValueError "invalid literal for int() with base 10: '{year-5}'") := rfl
  have e : solsticeCgi env solsticeDefault now = ⟨["Content-type: text/html", "", "<HEAD>",
      "<TITLE>Astronomia Solstice Results</TITLE>", "</HEAD>"],
      some (.ValueError "invalid literal for int() with base 10: '{year-5}'")⟩ := by
    unfold solsticeCgi
    rw [if_pos (show solsticeDefault.has "results" = true from rfl)]
    unfold solsticeResults
    simp only [hz, hy]
  refine ⟨⟨_, by rw [e]⟩, by rw [e]; decide, ?_⟩
  show ∀ v ∈ ["{year-5}", "{year+5}"], ∃ n ∈ ["starting_year", "ending_year"],
      "<TD><INPUT type=\"text\" size=4 name=\"" ++ n ++ "\" id=\"" ++ n ++ "\" value=\"" ++ v ++ "\"></TD>" ∈ solsticeForm
  decide +kernel

/-! ### With a conversion to local time which works -/

/-- The text of the local time of an event: what a reader may expect of the line for `season` of the year `y`.  The event
`x` is the instant when the apparent longitude of the Sun is the angle of the season, it is the only one within 340 days of
the approximation, and the text is that of the local time of an instant within a second of it. -/
def IsSeasonText (env : LocalEnv) (z : Zones) (y : ℤ) (season text : String) : Prop :=
  ∃ circ x t a : ℝ, (season, circ) ∈ seasonAngle ∧ IsEvent circ x ∧ |t - x| ≤ 0.056 / 86400 ∧
    equinoxApprox seasonNames y season = .ok a ∧ |x - a| ≤ 5.1 ∧ (∀ x', IsEvent circ x' → |x' - a| ≤ 340 → x' = x) ∧
    ∃ lt zone, env.utToLt z (dtToUt env.fl (env.rd t)) = .ok (lt, zone) ∧
      ltToStr env.fl lt (zone.getD "None") "second" = .ok text

theorem seasonTime_repaired {env : LocalEnv} {z : Zones} (ht : ∀ ut, ∃ r, env.utToLt z ut = .ok r) {y : ℤ}
    (hy : -1000 ≤ y ∧ y ≤ 3000) {season : String} (hs : season ∈ seasonNames) :
    ∃ text, seasonTime env z y season = .ok text ∧ IsSeasonText env z y season text := by
  have hc : ∃ circ, (season, circ) ∈ seasonAngle := by
    simp only [seasonNames, List.mem_cons, List.not_mem_nil, or_false] at hs
    rcases hs with rfl | rfl | rfl | rfl
    · exact ⟨deg 0, by simp [seasonAngle]⟩
    · exact ⟨deg 90, by simp [seasonAngle]⟩
    · exact ⟨deg 180, by simp [seasonAngle]⟩
    · exact ⟨deg 270, by simp [seasonAngle]⟩
  obtain ⟨circ, hc⟩ := hc
  obtain ⟨a, x, h1, h2, h3, h4, h5⟩ := equinox_of_approx y hy season circ hc
  obtain ⟨t, t1, t2⟩ := h5 (1 / 86400) (by norm_num)
  obtain ⟨⟨lt, zone⟩, hr⟩ := ht (dtToUt env.fl (env.rd t))
  have hl : ∃ s, ltToStr env.fl lt (zone.getD "None") "second" = .ok s := by
    unfold ltToStr; exact ⟨_, rfl⟩
  obtain ⟨s, hl⟩ := hl
  refine ⟨s, ?_, circ, x, t, a, hc, h2, ?_, h1, h3, h4, lt, zone, hr, hl⟩
  · unfold seasonTime
    simp only [bind, Except.bind, h1, t1, hr, hl]
  · refine t2.trans (le_of_eq ?_); ring

/-- The four lines of a year. -/
theorem seasons_repaired {env : LocalEnv} {z : Zones} (ht : ∀ ut, ∃ r, env.utToLt z ut = .ok r) {y : ℤ}
    (hy : -1000 ≤ y ∧ y ≤ 3000) (f : String → String → String) :
    ∃ a b c d, IsSeasonText env z y "spring" a ∧ IsSeasonText env z y "summer" b ∧ IsSeasonText env z y "autumn" c ∧
      IsSeasonText env z y "winter" d ∧
      printAll (fun season => printLine (seasonTime env z y season) (f season)) seasonNames =
        ⟨[f "spring" a, f "summer" b, f "autumn" c, f "winter" d], none⟩ := by
  obtain ⟨a, a1, a2⟩ := seasonTime_repaired ht hy (season := "spring") (by decide)
  obtain ⟨b, b1, b2⟩ := seasonTime_repaired ht hy (season := "summer") (by decide)
  obtain ⟨c, c1, c2⟩ := seasonTime_repaired ht hy (season := "autumn") (by decide)
  obtain ⟨d, d1, d2⟩ := seasonTime_repaired ht hy (season := "winter") (by decide)
  refine ⟨a, b, c, d, a2, b2, c2, d2, ?_⟩
  simp only [seasonNames, printAll, a1, b1, c1, d1, printLine]
  rfl

/-- C69, the table of `solstice` if the conversion to local time worked: for every range of years between -1000 and 3000,
the year and the texts of the four events, in the order of the seasons, for each year in order. -/
theorem solstice_repaired {env : LocalEnv} {z : Zones} (ht : ∀ ut, ∃ r, env.utToLt z ut = .ok r) {s e : ℤ}
    (h1 : -1000 ≤ s) (h2 : e ≤ 3000) :
    ∃ text : ℤ → String → String, (∀ y, s ≤ y → y ≤ e → ∀ season ∈ seasonNames,
        IsSeasonText env z y season (text y season)) ∧
      solsticeApp env (.ok z) (toString s) (some (toString e)) = ⟨(pyRange s (e + 1)).flatMap fun y =>
        [toString y, "     spring " ++ text y "spring", "     summer " ++ text y "summer",
         "     autumn " ++ text y "autumn", "     winter " ++ text y "winter"], none⟩ := by
  classical
  have key : ∀ y, ∃ t : String → String, s ≤ y → y ≤ e → (∀ season ∈ seasonNames, IsSeasonText env z y season (t season)) ∧
      printAll (fun season => printLine (seasonTime env z y season) (fun s => "     " ++ season ++ " " ++ s)) seasonNames =
        ⟨["     spring " ++ t "spring", "     summer " ++ t "summer",
         "     autumn " ++ t "autumn", "     winter " ++ t "winter"], none⟩ := by
    intro y
    by_cases hy : -1000 ≤ y ∧ y ≤ 3000
    · obtain ⟨a, b, c, d, a2, b2, c2, d2, hp⟩ := seasons_repaired ht hy (fun season s => "     " ++ season ++ " " ++ s)
      refine ⟨fun season => if season = "spring" then a else if season = "summer" then b else
        if season = "autumn" then c else d, fun _ _ => ⟨?_, ?_⟩⟩
      · intro season hs
        simp only [seasonNames, List.mem_cons, List.not_mem_nil, or_false] at hs
        rcases hs with rfl | rfl | rfl | rfl <;> simpa
      · rw [hp]; simp
    · exact ⟨fun _ => "", fun a b => absurd ⟨by omega, by omega⟩ hy⟩
  choose text hk using key
  refine ⟨text, fun y a b => (hk y a b).1, ?_⟩
  unfold solsticeApp
  simp only [pyInt_toString]
  have e1 : ∀ y ∈ pyRange s (e + 1), (printAll (fun season => printLine (seasonTime env z y season) fun s =>
          "     " ++ season ++ " " ++ s) seasonNames).within [toString y] [] = ⟨[toString y, "     spring " ++ text y "spring",
          "     summer " ++ text y "summer", "     autumn " ++ text y "autumn", "     winter " ++ text y "winter"], none⟩ := by
    intro y hy
    rw [mem_pyRange] at hy
    rw [(hk y hy.1 (by omega)).2]
    rfl
  rw [printAll_ok fun y hy => by rw [e1 y hy]]
  congr 1
  refine List.flatMap_congr fun y hy => ?_
  rw [e1 y hy]

/-- C69: but the conversion of the code raises, so that `solstice` shows the first year only, and no time at all. -/
theorem solstice_raises {env : LocalEnv} {tz : Stamp → ℤ} (ha : ∀ z, env.utToLt z = utToLt env.fl tz z) (z : Zones)
    {s e : ℤ} (h : s ≤ e) :
    ∃ err, solsticeApp env (.ok z) (toString s) (some (toString e)) = ⟨[toString s], some err⟩ := by
  obtain ⟨l, hl⟩ := pyRange_cons (show s < e + 1 by omega)
  obtain ⟨err, he⟩ := seasonTime_actual ha z s "spring"
  refine ⟨err, ?_⟩
  unfold solsticeApp
  simp only [pyInt_toString, hl]
  refine printAll_raises ?_
  have : printAll (fun season => printLine (seasonTime env z s season) fun s => "     " ++ season ++ " " ++ s) seasonNames =
      ⟨[], some err⟩ := printAll_raises (by simp only [he]; rfl)
  rw [this]
  rfl

/-- C69: without a second year, only the first; with a second year before the first, nothing. -/
theorem solstice_stop (env : LocalEnv) (lp : Except PyErr Zones) (s : ℤ) :
    solsticeApp env lp (toString s) none = solsticeApp env lp (toString s) (some (toString s)) ∧
    ∀ e, e < s → ∀ z, solsticeApp env (.ok z) (toString s) (some (toString e)) = ⟨[], none⟩ := by
  constructor
  · unfold solsticeApp
    simp only [pyInt_toString]
  · intro e h z
    unfold solsticeApp
    simp only [pyInt_toString]
    have : pyRange s (e + 1) = [] := by
      rw [← List.length_eq_zero_iff, pyRange_length]; omega
    rw [this]; rfl

/-- C58, the page if the conversion to local time worked: one row of four cells for each year. -/
theorem solstice_cgi_repaired {env : LocalEnv} {form : Form} {now s e : ℤ} {z : Zones}
    (ht : ∀ ut, ∃ r, env.utToLt z ut = .ok r) (hr : form.has "results" = true) (hz : formZones env form = .ok z)
    (hy : formYears form now = .ok (s, e)) (h1 : s ≤ e) (h2 : -1000 ≤ s) (h3 : e ≤ 3000) :
    ∃ text : ℤ → String → String, (∀ y, s ≤ y → y ≤ e → ∀ season ∈ seasonNames,
        IsSeasonText env z y season (text y season)) ∧
      solsticeCgi env form now = ⟨["Content-type: text/html", "", "<HEAD>",
        "<TITLE>Astronomia Solstice Results</TITLE>", "</HEAD>", "<BODY>", "<H1>Astronomia Solstice Results</H1>",
        "<TABLE BORDER>", "<TR>", "<TH>Vernal Equinox</TH>", "<TH>Summer Solstice</TH>", "<TH>Autumnal Equinox</TH>",
        "<TH>Winter Solstice</TH>", "</TR>"] ++ ((pyRange s (e + 1)).flatMap fun y =>
        ["<TR>", "<TD>" ++ text y "spring" ++ "</TD>", "<TD>" ++ text y "summer" ++ "</TD>",
         "<TD>" ++ text y "autumn" ++ "</TD>", "<TD>" ++ text y "winter" ++ "</TD>", "</TR>"]) ++
        ["</TABLE>", "</BODY>"], none⟩ := by
  classical
  have key : ∀ y, ∃ t : String → String, s ≤ y → y ≤ e → (∀ season ∈ seasonNames, IsSeasonText env z y season (t season)) ∧
      solsticeRow env z y = ⟨["<TR>", "<TD>" ++ t "spring" ++ "</TD>", "<TD>" ++ t "summer" ++ "</TD>",
         "<TD>" ++ t "autumn" ++ "</TD>", "<TD>" ++ t "winter" ++ "</TD>", "</TR>"], none⟩ := by
    intro y
    by_cases hy : -1000 ≤ y ∧ y ≤ 3000
    · obtain ⟨a, b, c, d, a2, b2, c2, d2, hp⟩ := seasons_repaired ht hy (fun _ s => "<TD>" ++ s ++ "</TD>")
      refine ⟨fun season => if season = "spring" then a else if season = "summer" then b else
        if season = "autumn" then c else d, fun _ _ => ⟨?_, ?_⟩⟩
      · intro season hs
        simp only [seasonNames, List.mem_cons, List.not_mem_nil, or_false] at hs
        rcases hs with rfl | rfl | rfl | rfl <;> simpa
      · unfold solsticeRow
        rw [hp]
        simp [Page.within]
    · exact ⟨fun _ => "", fun a b => absurd ⟨by omega, by omega⟩ hy⟩
  choose text hk using key
  refine ⟨text, fun y a b => (hk y a b).1, ?_⟩
  have e1 : ∀ y ∈ pyRange s (e + 1), solsticeRow env z y = ⟨["<TR>", "<TD>" ++ text y "spring" ++ "</TD>",
      "<TD>" ++ text y "summer" ++ "</TD>", "<TD>" ++ text y "autumn" ++ "</TD>", "<TD>" ++ text y "winter" ++ "</TD>",
      "</TR>"], none⟩ := by
    intro y hy
    rw [mem_pyRange] at hy
    exact (hk y hy.1 (by omega)).2
  unfold solsticeCgi
  rw [if_pos hr]
  unfold solsticeResults
  simp only [hz, hy]
  rw [if_neg (by omega), if_neg (by omega), printAll_ok fun y hy => by rw [e1 y hy]]
  unfold Page.within
  simp only
  congr 2
  congr 1
  refine List.flatMap_congr fun y hy => ?_
  rw [e1 y hy]

/-- A submission which meets the hypotheses. -/
example : ∃ (env : LocalEnv) (form : Form) (z : Zones), (∀ ut, ∃ r, env.utToLt z ut = .ok r) ∧
    form.has "results" = true ∧ formZones env form = .ok z ∧ formYears form 2024 = .ok (2019, 2029) :=
  ⟨⟨fun x => x, fun _ => 0, fun z ut => .ok (ut - z.standardOffset, some z.standardName)⟩,
    [("starting_year", toString (2019 : ℤ)), ("ending_year", toString (2029 : ℤ)), ("standard_zone", "EST"),
      ("daylight_zone", "EDT"), ("results", "1")], _, fun ut => ⟨_, rfl⟩, rfl,
    form_zones_given _ rfl rfl rfl rfl, form_years_given 2024 rfl rfl⟩

end Verif

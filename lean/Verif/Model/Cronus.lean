import Verif.Model.Heap
import Verif.Model.RiseSet
import Verif.Model.Geocentric
import Verif.Model.Equinox
import Verif.Model.Lunar
import Verif.Model.Dynamical

/-!
# `apps/cronus.py`

The calendar uses floats (`ℚ` with a rounding `fl`), the astronomical functions are modelled over `ℝ`.
Where the program passes a computed time to a calendar function, the float is given by an arbitrary
function `rd`.
-/

namespace Verif

noncomputable section
open Real

/-- What the program depends on besides its arguments: the rounding, the conversion to local time
(`calendar.ut_to_lt`, a parameter here so that the theorems also apply to a repaired version), and the
coordinates of the observer, once as they were when `riseset.py` was imported (default arguments of
`_riseset`) and once as set by `load_params`. -/
structure CronusEnv where
  fl : ℚ → ℚ
  rd : ℝ → ℚ
  utToLt : ℚ → Except PyErr (ℚ × Option String)
  loadParams : Except PyErr Unit
  defLongitude : ℝ
  defLatitude : ℝ
  gLongitude : ℝ
  gLatitude : ℝ

/-- Where an event comes from.  Not part of the program, only used to state properties.
Used for tagging the lines pushed at lines 88, 107, 121, 129 and 137 of apps/cronus.py. -/
inductive Source where
  | easter
  | season
  | rst
  deriving DecidableEq

/-- The function and the arguments of a task: `cronus.py` 80 `display`, 84 `doEaster`, 101 `doEquinox`,
111 `doRiseSetTransit`. -/
inductive Job where
  | display (src : Source) (str : String)
  | easter (year : ℤ)
  | equinox (year : ℤ) (season : String)
  | rst (jdToday : ℚ)

/-- `cronus.py` 56-66 `Task`. -/
structure Task where
  jd : ℝ
  job : Job

instance : Inhabited Task := ⟨⟨0, .easter 0⟩⟩

/-- `cronus.py` 72-77 `RiseSetTransit`.  The lists always have three items. -/
structure RstObject where
  name : String
  ra : ℝ × ℝ × ℝ
  dec : ℝ × ℝ × ℝ
  h0 : ℝ × ℝ × ℝ

/-- The global variables `taskQueue` (69) and `rstDict` (53, in order of insertion).
Used for lines 53 and 69 of apps/cronus.py. -/
structure CronusState where
  queue : List Task
  dict : List (String × RstObject)

/-- `heappush(taskQueue, Task(jd, ...))`.
Used for lines 88, 90, 107, 108, 121, 129, 137, 210, 289, 327 and 331 of apps/cronus.py. -/
def push (q : List Task) (jd : ℝ) (job : Job) : List Task := heappush Task.jd q ⟨jd, job⟩

/-- Python `f"{s:<n}"`.  Used for lines 87, 120, 128 and 136 of apps/cronus.py. -/
def padRight (n : ℕ) (s : String) : String := s ++ String.ofList (List.replicate (n - s.length) ' ')

/-- Python `f"{zone}"` of a string or `None`.  Used for lines 106, 120, 128 and 136 of apps/cronus.py. -/
def zoneStr (z : Option String) : String := z.getD "None"

/-- A call of `cal_to_jd` with scalar arguments, which returns a scalar.
Used for lines 86, 90 and 214 of apps/cronus.py. -/
def calToJdScalar (fl : ℚ → ℚ) (year mon day : ℤ) : Except PyErr ℚ := do
  match ← calToJd fl [.int year] [.int mon] [(day : ℚ)] true with
  | .scalar jd => .ok jd
  -- arrays are not possible for scalar arguments
  | .arr _ => .error (.TypeError "array")

/-- `cronus.py` 84-90 `doEaster`. -/
def doEaster (env : CronusEnv) (q : List Task) (year : ℤ) : Except PyErr (List Task) := do
  match easter [year] true with
  | (.scalar month, .scalar day) =>
    let jd ← calToJdScalar env.fl year month day
    let s ← ltToStr env.fl jd "None" "day"
    let q := push q jd (.display .easter (padRight 24 s ++ " Easter"))
    let jd' ← calToJdScalar env.fl (year + 1) 3 1
    .ok (push q jd' (.easter (year + 1)))
  | _ => .error (.TypeError "array")

/-- `cronus.py` 93-98 `_seasons`. -/
def seasonTitles : List (String × String) :=
  [("spring", "Vernal Equinox"), ("summer", "Summer Solstice"), ("autumn", "Autumnal Equinox"),
   ("winter", "Winter Solstice")]

/-- `cronus.py` 101-108 `doEquinox`. -/
def doEquinox (env : CronusEnv) (q : List Task) (year : ℤ) (season : String) :
    Except PyErr (List Task) := do
  let approx ← equinoxApprox seasonNames year season
  let jd ← equinox approx season (1 / 86400)
  let (lt, zone) ← env.utToLt (dtToUt env.fl (env.rd jd))
  let s ← ltToStr env.fl lt (zoneStr zone) "second"
  match seasonTitles.lookup season with
  | none => .error (.KeyError season)
  | some title =>
    let q := push q jd (.display .season (s ++ " " ++ title))
    .ok (push q jd (.equinox (year + 1) season))

/-- `cronus.py` 117-123, 125-131, 133-139: queue one event, or print a failure.  `td` is falsy if it is
`None` or zero. -/
def rstEvent (env : CronusEnv) (q : List Task) (td : Option ℝ) (failure : String)
    (fmt : ℚ → Option String → Except PyErr String) : Except PyErr (List Task × List String) :=
  match td with
  | none => .ok (q, [failure])
  | some td =>
    if td = 0 then .ok (q, [failure])
    else do
      let (lt, zone) ← env.utToLt (dtToUt env.fl (env.rd td))
      let s ← fmt lt zone
      .ok (push q td (.display .rst s), [])

/-- `cronus.py` 116-139: the events of all objects; the second result is what is printed. -/
def rstEvents (env : CronusEnv) (jd : ℚ) : List RstObject → List Task →
    Except PyErr (List Task × List String)
  | [], q => .ok (q, [])
  | o :: os, q => do
    let td ← rise jd o.ra o.dec o.h0.2.1 (1 / 1440) env.defLongitude env.defLatitude env.gLatitude
    let (q, p1) ← rstEvent env q td ("****** RiseSetTransit failure: " ++ o.name ++ " rise")
      fun lt zone => do
        let s ← ltToStr env.fl lt "" "minute"
        .ok (padRight 19 s ++ " " ++ zoneStr zone ++ " " ++ o.name ++ " rises")
    let td ← settime jd o.ra o.dec o.h0.2.1 (1 / 1440) env.defLongitude env.defLatitude env.gLatitude
    let (q, p2) ← rstEvent env q td ("****** RiseSetTransit failure: " ++ o.name ++ " set")
      fun lt zone => do
        let s ← ltToStr env.fl lt "" "minute"
        .ok (padRight 19 s ++ " " ++ zoneStr zone ++ " " ++ o.name ++ " sets")
    let td ← transit jd o.ra (1 / 86400) env.gLongitude
    let (q, p3) ← rstEvent env q td ("****** RiseSetTransit failure: " ++ o.name ++ " transit")
      fun lt zone => do
        let s ← ltToStr env.fl lt (zoneStr zone) "second"
        .ok (padRight 23 s ++ " " ++ o.name ++ " transits")
    let (q, p) ← rstEvents env jd os q
    .ok (q, p1 ++ p2 ++ p3 ++ p)

/-- `del l[0]; l.append(x)` on a list of three items.
Used for lines 160-165, 178-183 and 203-208 of apps/cronus.py. -/
def shift3 (l : ℝ × ℝ × ℝ) (x : ℝ) : ℝ × ℝ × ℝ := (l.2.1, l.2.2, x)

/-- `cronus.py` 159-165, 177-183, 202-208: append the coordinates of a day to the object `name`. -/
def updateObject (dict : List (String × RstObject)) (name : String) (ra dec h0 : ℝ) :
    Except PyErr (List (String × RstObject)) :=
  match dict.lookup name with
  | none => .error (.KeyError name)
  | some _ => .ok (dict.map fun r =>
      if r.1 = name then
        (r.1, ⟨r.2.name, shift3 r.2.ra ra, shift3 r.2.dec dec, shift3 r.2.h0 h0⟩)
      else r)

/-- `planets.py` 41-50 `planet_names` without the Earth (`cronus.py` 156-157, 232-233). -/
def skyPlanets : List String := ["Mercury", "Venus", "Mars", "Jupiter", "Saturn", "Uranus", "Neptune"]

/-- `constants.py`: `sun_rst_altitude`. -/
def sunRstAltitude : ℝ := -0.0145438286569

/-- `cronus.py` 147-150, 223-225: nutation in longitude and apparent obliquity. -/
def nutationPair (jd : ℝ) : ℝ × ℝ := (nutationInLongitude jd, obliquity jd + nutationInObliquity jd)

/-- `cronus.py` 169-183, 253-262: coordinates and standard altitude of the Moon. -/
def moonPlace (jd deltaPsi eps : ℝ) : ℝ × ℝ × ℝ :=
  let (l, b, r) := lunarDimension3 jd
  let (ra, dec) := eclToEqu (l + deltaPsi) b eps
  (ra, dec, moonRstAltitude r)

/-- `cronus.py` 188-208, 272-285: coordinates of the Sun. -/
def sunPlace (jd deltaPsi eps : ℝ) : Except PyErr (ℝ × ℝ) := do
  match ← sunDimension3 vsopDict [jd] with
  | (.scalar l, .scalar b, .scalar r) =>
    let (l, b) := vsopToFk5 jd l b
    let l := l + deltaPsi
    let l := l + aberrationLow r
    .ok (eclToEqu l b eps)
  | _ => .error (.TypeError "array")

/-- `cronus.py` 155-165: the loop over the planets. -/
def updatePlanets (jd deltaPsi eps : ℝ) : List String → List (String × RstObject) →
    Except PyErr (List (String × RstObject))
  | [], dict => .ok dict
  | p :: ps, dict => do
    let (ra, dec) ← geocentricPlanet jd p deltaPsi eps (1 / 86400)
    let dict ← updateObject dict p ra dec standardRstAltitude
    updatePlanets jd deltaPsi eps ps dict

/-- `cronus.py` 111-210 `doRiseSetTransit`. -/
def doRiseSetTransit (env : CronusEnv) (st : CronusState) (jdToday : ℚ) :
    Except PyErr (CronusState × List String) := do
  let (q, printed) ← rstEvents env jdToday (st.dict.map Prod.snd) st.queue
  let jd := env.fl (jdToday + 2)
  let (deltaPsi, eps) := nutationPair jd
  let dict ← updatePlanets jd deltaPsi eps skyPlanets st.dict
  let (ra, dec, h0) := moonPlace jd deltaPsi eps
  let dict ← updateObject dict "Moon" ra dec h0
  let (ra, dec) ← sunPlace jd deltaPsi eps
  let dict ← updateObject dict "Sun" ra dec sunRstAltitude
  .ok (⟨push q jd (.rst (env.fl (jdToday + 1))), dict⟩, printed)

/-- `t.func(*t.args)`: the new state and what is printed.  Used for line 339 of apps/cronus.py. -/
def runTask (env : CronusEnv) (st : CronusState) (t : Task) : Except PyErr (CronusState × List String) :=
  match t.job with
  | .display _ str => .ok (st, [str])
  | .easter year => do .ok (⟨← doEaster env st.queue year, st.dict⟩, [])
  | .equinox year season => do .ok (⟨← doEquinox env st.queue year season, st.dict⟩, [])
  | .rst jdToday => doRiseSetTransit env st jdToday

/-- `cronus.py` 234-244: one planet on three days. -/
def initPlanets (env : CronusEnv) (startJd : ℚ) : List String → List (String × RstObject) →
    Except PyErr (List (String × RstObject))
  | [], dict => .ok dict
  | p :: ps, dict => do
    let place := fun (day : ℚ) =>
      let jd : ℝ := (env.fl (startJd + day) : ℚ)
      geocentricPlanet jd p (nutationPair jd).1 (nutationPair jd).2 (1 / 86400)
    let (r0, d0) ← place (-1)
    let (r1, d1) ← place 0
    let (r2, d2) ← place 1
    let h0 := standardRstAltitude
    initPlanets env startJd ps (dict ++ [(p, ⟨p, (r0, r1, r2), (d0, d1, d2), (h0, h0, h0)⟩)])

/-- `cronus.py` 213-289 `initRST`, started with an empty `rstDict`. -/
def initRST (env : CronusEnv) (q : List Task) (startYear : ℤ) : Except PyErr CronusState := do
  let startJd ← calToJdScalar env.fl startYear 1 1
  let dict ← initPlanets env startJd skyPlanets []
  let at_ := fun (day : ℚ) => ((env.fl (startJd + day) : ℚ) : ℝ)
  let moon := fun (day : ℚ) => moonPlace (at_ day) (nutationPair (at_ day)).1 (nutationPair (at_ day)).2
  let sun := fun (day : ℚ) => sunPlace (at_ day) (nutationPair (at_ day)).1 (nutationPair (at_ day)).2
  let (m0, m1, m2) := (moon (-1), moon 0, moon 1)
  let dict := dict ++ [("Moon", ⟨"Moon", (m0.1, m1.1, m2.1), (m0.2.1, m1.2.1, m2.2.1),
    (m0.2.2, m1.2.2, m2.2.2)⟩)]
  let (r0, d0) ← sun (-1)
  let (r1, d1) ← sun 0
  let (r2, d2) ← sun 1
  let h0 := sunRstAltitude
  let dict := dict ++ [("Sun", ⟨"Sun", (r0, r1, r2), (d0, d1, d2), (h0, h0, h0)⟩)]
  .ok ⟨push q 0 (.rst startJd), dict⟩

/-- `cronus.py` 326-331: the first tasks, with `HIGH_PRIORITY` 0.0. -/
def firstTasks (start : ℤ) : List Task :=
  seasonNames.foldl (fun q season => push q 0 (.equinox start season)) (push [] 0 (.easter start))

/-- `cronus.py` 320-334: everything before the loop.  The result is the value of `stop` and the state.
`cal_to_jd(None)` is a `TypeError`: the array `[None]` cannot be cast to int. -/
def cronusInit (env : CronusEnv) (start : ℤ) (stop : Option ℤ) : Except PyErr (ℝ × CronusState) := do
  let stop ← match stop with
    | none => .error (.TypeError "int() argument must be a string, a bytes-like object or a real number, not 'NoneType'")
    | some s => .ok (s : ℝ)
  env.loadParams
  let st ← initRST env (firstTasks start) start
  .ok (stop, st)

/-- The loop variables: the state and the current task `t`.  Used for lines 337-340 of apps/cronus.py. -/
structure CronusCfg where
  st : CronusState
  cur : Task

/-- `heappop(taskQueue)`, an `IndexError` for an empty queue.  Used for lines 337 and 340 of apps/cronus.py. -/
def popTask (st : CronusState) : Except PyErr CronusCfg :=
  match heappop Task.jd st.queue with
  | none => .error (.IndexError "index out of range")
  | some (t, q) => .ok ⟨⟨q, st.dict⟩, t⟩

/-- `cronus.py` 338-340: one pass of the loop. -/
def cronusPass (env : CronusEnv) (c : CronusCfg) : Except PyErr (CronusCfg × List String) := do
  let (st, printed) ← runTask env c.st c.cur
  let c ← popTask st
  .ok (c, printed)

/-- A partial execution of the loop: the tasks done, with what they printed.
Used for lines 338-340 of apps/cronus.py. -/
inductive CronusSteps (env : CronusEnv) (stop : ℝ) : CronusCfg → List (Task × List String) → CronusCfg → Prop
  | refl (c) : CronusSteps env stop c [] c
  | step {c c' c'' l printed} : c.cur.jd < stop → cronusPass env c = .ok (c', printed) →
      CronusSteps env stop c' l c'' → CronusSteps env stop c ((c.cur, printed) :: l) c''

/-- An execution of `cronus(start, stop)` up to some point of the loop: the tasks done so far.
Used for lines 318-340 of apps/cronus.py. -/
inductive CronusRun (env : CronusEnv) (start stop : ℤ) : List (Task × List String) → CronusCfg → Prop
  | intro {s st c l c'} : cronusInit env start (some stop) = .ok (s, st) → popTask st = .ok c →
      CronusSteps env s c l c' → CronusRun env start stop l c'

end
end Verif

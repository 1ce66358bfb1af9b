import Verif.Model.Cronus
import Verif.Props.Heap
import Verif.Props.Easter
import Verif.Props.EquinoxYear
import Verif.Props.LocalTime
import Verif.Props.RiseSet

/-!
# Lemmas about the tasks of `cronus.py`
-/

namespace Verif
open Real Spec

/-- `q'` is a heap with the tasks of `q` and further ones. -/
def Adds (q q' new : List Task) : Prop := IsHeap Task.jd q' ∧ q'.Perm (new ++ q)

theorem Adds.refl {q : List Task} (h : IsHeap Task.jd q) : Adds q q [] := ⟨h, .refl _⟩

theorem Adds.push {q q' new : List Task} (h : Adds q q' new) (jd : ℝ) (job : Job) :
    Adds q (push q' jd job) (⟨jd, job⟩ :: new) := by
  obtain ⟨a, b⟩ := heappush_spec Task.jd q' ⟨jd, job⟩ h.1
  exact ⟨b, a.trans (h.2.cons _)⟩

/-- What `cal_to_jd` returns for a whole day: the Julian Day, except for the days it is off. -/
def cj (y m d : ℤ) : ℚ := jd0 true y m d + excess true y m

theorem calToJdScalar_ok {fl : ℚ → ℚ} (h : FloatLike fl) {y m d : ℤ} (hy1 : -2 ^ 31 ≤ y) (hy2 : y < 2 ^ 31)
    (hv : Valid true y m d) : calToJdScalar fl y m d = .ok (cj y m d) := by
  unfold calToJdScalar
  rw [cal_to_jd_whole_day h true y m d hy1 hy2 hv]
  rfl

theorem calToJdScalar_year {fl : ℚ → ℚ} (h : FloatLike fl) {y m d : ℤ} {r : ℚ}
    (e : calToJdScalar fl y m d = .ok r) : y < 2 ^ 31 := by
  unfold calToJdScalar at e
  cases hc : calToJd fl [.int y] [.int m] [(d : ℚ)] true with
  | error e' => rw [hc] at e; cases e
  | ok r' => exact ((cal_to_jd_accepts_iff h true y m d).mp ⟨r', hc⟩).1

/-- The time of Easter, as `doEaster` computes it. -/
def easterJd (y : ℤ) : ℚ := cj y (easter1 y true).1 (easter1 y true).2

/-- Easter is in March or April. -/
theorem easterJd_bounds (y : ℤ) : cj y 3 1 + 21 ≤ easterJd y ∧ easterJd y ≤ cj y 3 1 + 55 := by
  obtain ⟨⟨hv, -⟩, hw⟩ := easter_isEaster true y
  unfold easterJd cj
  have e34 : excess true y 4 = excess true y 3 := rfl
  have l3 : monthLen true y 3 = 31 := by simp [monthLen]
  have l4 : monthLen true y 4 = 30 := by simp [monthLen]
  have j : ∀ d, jdn true y 3 d = jdn true y 3 1 + (d - 1) := by
    intro d; rw [jdn_add true y 3 d, jdn_add true y 3 1]; ring
  obtain ⟨-, -, v1, v2⟩ := hv
  rcases hw with ⟨a, b⟩ | ⟨a, b⟩
  · rw [a] at v2 ⊢
    rw [l3] at v2
    unfold jd0
    rw [j (easter1 y true).2]
    have b' : (22 : ℚ) ≤ (easter1 y true).2 := by exact_mod_cast b
    have v' : ((easter1 y true).2 : ℚ) ≤ 31 := by exact_mod_cast v2
    push_cast
    constructor <;> linarith
  · rw [a] at v2 ⊢
    rw [e34]
    unfold jd0
    rw [jdn_april, j ((easter1 y true).2 + 31)]
    have b' : ((easter1 y true).2 : ℚ) ≤ 25 := by exact_mod_cast b
    have v' : (1 : ℚ) ≤ (easter1 y true).2 := by exact_mod_cast v1
    push_cast
    constructor <;> linarith

/-- From one first of March to the next. -/
theorem march_step {y : ℤ} (hy : -4712 ≤ y) : cj y 3 1 + 364 ≤ cj (y + 1) 3 1 := by
  unfold cj jd0
  have e := excess_eq true y 3 (by omega)
  have e' := excess_eq true (y + 1) 3 (by omega)
  have b : excess true y 3 ≤ 1 := by
    by_cases h : Exceptional true y 3
    · exact (e.1 h).le
    · rw [e.2 h]; norm_num
  have b' : 0 ≤ excess true (y + 1) 3 := by
    by_cases h : Exceptional true (y + 1) 3
    · rw [e'.1 h]; norm_num
    · rw [e'.2 h]
  have d : jdn true y 3 1 + 365 ≤ jdn true (y + 1) 3 1 := by
    rw [jdn_march, jdn_march, daysToYear_true, daysToYear_true, leapDay_true, leapDay_true]
    unfold ind
    split_ifs <;> omega
  have b1 : (excess true y 3 : ℚ) ≤ 1 := by exact_mod_cast b
  have b2 : (0 : ℚ) ≤ excess true (y + 1) 3 := by exact_mod_cast b'
  have d1 : (jdn true y 3 1 : ℚ) + 365 ≤ jdn true (y + 1) 3 1 := by exact_mod_cast d
  linarith

theorem valid_march (y : ℤ) : Valid true y 3 1 :=
  ⟨by norm_num, by norm_num, by norm_num, by simp [monthLen]⟩

/-- Half-integers are floats. -/
theorem fl_half {fl : ℚ → ℚ} (h : FloatLike fl) {n : ℤ} (hn : |n| ≤ 2 ^ 50) : fl (n - 1 / 2) = n - 1 / 2 := by
  refine h.fix _ ⟨2 * n - 1, -1, ?_, by norm_num, ?_⟩
  · rw [abs_le] at hn ⊢; omega
  · rw [zpow_neg_one]; push_cast; ring

theorem cj_half (y m d : ℤ) : ∃ n : ℤ, cj y m d = n - 1 / 2 :=
  ⟨jdn true y m d + excess true y m, by unfold cj jd0; push_cast; ring⟩

theorem excess_range {y : ℤ} (m : ℤ) (hy : -4711 ≤ y) : 0 ≤ excess true y m ∧ excess true y m ≤ 1 := by
  have e := excess_eq true y m (by omega)
  by_cases h : Exceptional true y m
  · rw [e.1 h]; norm_num
  · rw [e.2 h]; norm_num

theorem cj_january {y : ℤ} (hy : -1000 ≤ y) (hy2 : y < 2 ^ 31) : 1355000 ≤ cj y 1 1 ∧ cj y 1 1 ≤ 2 ^ 40 := by
  obtain ⟨a, b⟩ := excess_range 1 (show -4711 ≤ y by omega)
  have d : 1355001 ≤ jdn true y 1 1 ∧ jdn true y 1 1 ≤ 2 ^ 40 - 2 := by
    unfold jdn epoch
    rw [dayOfYear_1, daysToYear_true]
    simp only [if_true]
    omega
  have a' : (0 : ℚ) ≤ excess true y 1 := by exact_mod_cast a
  have b' : (excess true y 1 : ℚ) ≤ 1 := by exact_mod_cast b
  have d1 : (1355001 : ℚ) ≤ jdn true y 1 1 := by exact_mod_cast d.1
  have d2 : (jdn true y 1 1 : ℚ) ≤ 2 ^ 40 - 2 := by exact_mod_cast d.2
  unfold cj jd0
  constructor <;> linarith

theorem cj_march {y : ℤ} (hy : -1000 ≤ y) : 1355000 ≤ cj y 3 1 := by
  obtain ⟨a, b⟩ := excess_range 3 (show -4711 ≤ y by omega)
  have d : 1355001 ≤ jdn true y 3 1 := by
    rw [jdn_march, daysToYear_true, leapDay_true]
    unfold epoch ind
    simp only [if_true]
    split_ifs <;> omega
  have a' : (0 : ℚ) ≤ excess true y 3 := by exact_mod_cast a
  have d1 : (1355001 : ℚ) ≤ jdn true y 3 1 := by exact_mod_cast d
  unfold cj jd0
  linarith

/-- For which arguments `equinox_approx` returns. -/
theorem equinoxApprox_domain {y : ℤ} {season : String} {a : ℝ} (h : equinoxApprox seasonNames y season = .ok a) :
    (-1000 ≤ y ∧ y ≤ 3000) ∧ season ∈ seasonNames ∧ ∃ circ, (season, circ) ∈ seasonAngle := by
  unfold equinoxApprox at h
  split_ifs at h with h1 h2
  refine ⟨⟨by exact_mod_cast h1.1, by exact_mod_cast h1.2⟩, h2, ?_⟩
  unfold seasonAngle
  unfold seasonNames at h2
  simp only [List.mem_cons, List.not_mem_nil, or_false] at h2
  rcases h2 with rfl | rfl | rfl | rfl
  · exact ⟨_, by simp; rfl⟩
  · exact ⟨_, by simp; rfl⟩
  · exact ⟨_, by simp; rfl⟩
  · exact ⟨_, by simp; rfl⟩

/-- The time found for a season is near the approximation, and dates from after the first of January of
the year -1400. -/
theorem equinox_near_approx {y : ℤ} {season : String} {a t : ℝ} (h : equinoxApprox seasonNames y season = .ok a)
    (h' : equinox a season (1 / 86400) = .ok t) : |t - a| ≤ 5.2 ∧ 1340000 ≤ t := by
  obtain ⟨hy, hs, circ, hc⟩ := equinoxApprox_domain h
  obtain ⟨a', x, ha', -, hx, -, ht⟩ := equinox_of_approx y hy season circ hc
  rw [h] at ha'
  cases ha'
  obtain ⟨t', ht', b⟩ := ht (1 / 86400) (by norm_num)
  rw [h'] at ht'
  cases ht'
  obtain ⟨a'', ha'', hm, -⟩ := sunLambda_approx y hy season circ hc
  rw [h] at ha''
  cases ha''
  have e : t - a = (t - x) + (x - a) := by ring
  have c : |t - a| ≤ 5.2 := by
    rw [e]
    refine (abs_add_le _ _).trans ?_
    norm_num at b hx ⊢
    linarith
  refine ⟨c, ?_⟩
  unfold millennia at hm
  rw [abs_le] at c hm
  have := hm.1
  rw [le_div_iff₀ (by norm_num)] at this
  norm_num at this c ⊢
  linarith

/-- Successive years are in order. -/
theorem equinox_next {y : ℤ} {season : String} {a t a' t' : ℝ} (h : equinoxApprox seasonNames y season = .ok a)
    (ht : equinox a season (1 / 86400) = .ok t) (h' : equinoxApprox seasonNames (y + 1 : ℤ) season = .ok a')
    (ht' : equinox a' season (1 / 86400) = .ok t') : t + 354 ≤ t' := by
  obtain ⟨hy, hs, -⟩ := equinoxApprox_domain h
  obtain ⟨hy', -, -⟩ := equinoxApprox_domain h'
  obtain ⟨b, b', e, e', l, -⟩ := equinox_approx_year y ⟨hy.1, by omega⟩ season hs
  rw [h] at e
  rw [h'] at e'
  cases e
  cases e'
  have c := (equinox_near_approx h ht).1
  have c' := (equinox_near_approx h' ht').1
  rw [abs_le] at c c'
  norm_num at c c' l
  linarith

/-! ### What the tasks push -/

theorem rstEvent_none (env : CronusEnv) (q : List Task) (failure : String)
    (fmt : ℚ → Option String → Except PyErr String) : rstEvent env q none failure fmt = .ok (q, [failure]) := rfl

theorem doEaster_ok {env : CronusEnv} (hf : FloatLike env.fl) {q q' : List Task} {y : ℤ} (hy : -4712 ≤ y)
    (hq : IsHeap Task.jd q) (h : doEaster env q y = .ok q') :
    ∃ s, ltToStr env.fl (easterJd y) "None" "day" = .ok s ∧
      Adds q q' [⟨(cj (y + 1) 3 1 : ℚ), .easter (y + 1)⟩,
        ⟨(easterJd y : ℚ), .display .easter (padRight 24 s ++ " Easter")⟩] := by
  have he : easter [y] true = (.scalar (easter1 y true).1, .scalar (easter1 y true).2) := rfl
  obtain ⟨⟨hv, -⟩, -⟩ := easter_isEaster true y
  unfold doEaster at h
  simp only [he, bind, Except.bind] at h
  cases h1 : calToJdScalar env.fl y (easter1 y true).1 (easter1 y true).2 with
  | error e => rw [h1] at h; cases h
  | ok jd =>
    have y2 := calToJdScalar_year hf h1
    have := calToJdScalar_ok hf (by omega) y2 hv
    rw [this] at h1
    cases h1
    rw [this] at h
    simp only at h
    cases h2 : ltToStr env.fl (cj y (easter1 y true).1 (easter1 y true).2) "None" "day" with
    | error e => rw [h2] at h; cases h
    | ok s =>
      rw [h2] at h
      simp only at h
      cases h3 : calToJdScalar env.fl (y + 1) 3 1 with
      | error e => rw [h3] at h; cases h
      | ok jd' =>
        have y3 := calToJdScalar_year hf h3
        have := calToJdScalar_ok hf (m := 3) (d := 1) (by omega) y3 (valid_march _)
        rw [this] at h3
        cases h3
        rw [this] at h
        cases h
        exact ⟨s, h2, ((Adds.refl hq).push _ _).push _ _⟩

/-- `doEaster` does not raise before the year 2^31. -/
theorem doEaster_total {env : CronusEnv} (hf : FloatLike env.fl) (q : List Task) {y : ℤ} (hy : -4712 ≤ y)
    (hy2 : y + 1 < 2 ^ 31) : ∃ q', doEaster env q y = .ok q' := by
  have he : easter [y] true = (.scalar (easter1 y true).1, .scalar (easter1 y true).2) := rfl
  obtain ⟨⟨hv, -⟩, -⟩ := easter_isEaster true y
  unfold doEaster
  simp only [he, bind, Except.bind]
  rw [calToJdScalar_ok hf (by omega) (by omega) hv]
  simp only
  rw [calToJdScalar_ok hf (by omega) hy2 (valid_march _)]
  unfold ltToStr
  simp

theorem doEquinox_ok {env : CronusEnv} {q q' : List Task} {y : ℤ} {season : String}
    (hq : IsHeap Task.jd q) (h : doEquinox env q y season = .ok q') :
    ∃ a jd lt zone s title, equinoxApprox seasonNames y season = .ok a ∧ equinox a season (1 / 86400) = .ok jd ∧
      env.utToLt (dtToUt env.fl (env.rd jd)) = .ok (lt, zone) ∧ ltToStr env.fl lt (zoneStr zone) "second" = .ok s ∧
      (season, title) ∈ seasonTitles ∧
      Adds q q' [⟨jd, .equinox (y + 1) season⟩, ⟨jd, .display .season (s ++ " " ++ title)⟩] := by
  unfold doEquinox at h
  simp only [bind, Except.bind] at h
  cases h1 : equinoxApprox seasonNames y season with
  | error e => rw [h1] at h; cases h
  | ok a =>
    rw [h1] at h
    simp only at h
    cases h2 : equinox a season (1 / 86400) with
    | error e => rw [h2] at h; cases h
    | ok jd =>
      rw [h2] at h
      simp only at h
      cases h3 : env.utToLt (dtToUt env.fl (env.rd jd)) with
      | error e => rw [h3] at h; cases h
      | ok r =>
        obtain ⟨lt, zone⟩ := r
        rw [h3] at h
        simp only at h
        cases h4 : ltToStr env.fl lt (zoneStr zone) "second" with
        | error e => rw [h4] at h; cases h
        | ok s =>
          rw [h4] at h
          simp only at h
          cases h5 : seasonTitles.lookup season with
          | none => rw [h5] at h; cases h
          | some title =>
            rw [h5] at h
            cases h
            have m : (season, title) ∈ seasonTitles := by
              have : ∀ l : List (String × String), l.lookup season = some title → (season, title) ∈ l := by
                intro l
                induction l with
                | nil => intro h; cases h
                | cons r l ih =>
                  intro h
                  rw [List.lookup_cons] at h
                  by_cases e : season = r.1
                  · subst e
                    simp only [BEq.rfl, Option.some.injEq] at h
                    rw [← h]; exact List.mem_cons_self
                  · rw [show (season == r.1) = false by simpa using e] at h
                    exact List.mem_cons_of_mem _ (ih h)
              exact this _ h5
            exact ⟨a, jd, lt, zone, s, title, rfl, h2, h3, h4, m, ((Adds.refl hq).push _ _).push _ _⟩

theorem rstEvent_ok {env : CronusEnv} {q q' new : List Task} {q0 : List Task} {td : Option ℝ} {failure : String}
    {fmt : ℚ → Option String → Except PyErr String} {p : List String}
    (hq : Adds q0 q new) (h : rstEvent env q td failure fmt = .ok (q', p)) :
    (q' = q ∧ p = [failure]) ∨ ∃ t s, td = some t ∧ p = [] ∧ Adds q0 q' (⟨t, .display .rst s⟩ :: new) := by
  unfold rstEvent at h
  cases td with
  | none => cases h; exact .inl ⟨rfl, rfl⟩
  | some t =>
    simp only at h
    split_ifs at h with h0
    · cases h; exact .inl ⟨rfl, rfl⟩
    · right
      simp only [bind, Except.bind] at h
      cases h3 : env.utToLt (dtToUt env.fl (env.rd t)) with
      | error e => rw [h3] at h; cases h
      | ok r =>
        obtain ⟨lt, zone⟩ := r
        rw [h3] at h
        simp only at h
        cases h4 : fmt lt zone with
        | error e => rw [h4] at h; cases h
        | ok s =>
          rw [h4] at h
          cases h
          exact ⟨t, s, rfl, rfl, hq.push _ _⟩

/-- The events pushed are transits. -/
theorem rstEvents_ok {env : CronusEnv} {jd : ℚ} {q0 : List Task} : ∀ (os : List RstObject) {q q' new : List Task}
    {p : List String}, Adds q0 q new → rstEvents env jd os q = .ok (q', p) →
    ∃ new', Adds q0 q' (new' ++ new) ∧ ∀ x ∈ new', ∃ o ∈ os, ∃ t s, x = ⟨t, .display .rst s⟩ ∧
      transit jd o.ra (1 / 86400) env.gLongitude = .ok (some t) := by
  intro os
  induction os with
  | nil => intro q q' new p hq h; cases h; exact ⟨[], hq, by simp⟩
  | cons o os ih =>
    intro q q' new p hq h
    unfold rstEvents at h
    simp only [bind, Except.bind] at h
    cases h1 : rise jd o.ra o.dec o.h0.2.1 (1 / 1440) env.defLongitude env.defLatitude env.gLatitude with
    | error e => rw [h1] at h; cases h
    | ok td =>
    rw [h1, rise_returns_none h1] at h
    simp only [rstEvent_none] at h
    cases h2 : settime jd o.ra o.dec o.h0.2.1 (1 / 1440) env.defLongitude env.defLatitude env.gLatitude with
    | error e => rw [h2] at h; cases h
    | ok td =>
    rw [h2, settime_returns_none h2] at h
    simp only [rstEvent_none] at h
    cases h3 : transit jd o.ra (1 / 86400) env.gLongitude with
    | error e => rw [h3] at h; cases h
    | ok td =>
    rw [h3] at h
    simp only at h
    split at h
    · cases h
    · rename_i r he
      obtain ⟨qa, pa⟩ := r
      simp only at h
      split at h
      · cases h
      · rename_i r' he'
        obtain ⟨qb, pb⟩ := r'
        cases h
        rcases rstEvent_ok hq he with ⟨rfl, -⟩ | ⟨t, s, rfl, -, ha⟩
        · obtain ⟨new', n1, n2⟩ := ih hq he'
          refine ⟨new', n1, fun x hx => ?_⟩
          obtain ⟨o', ho', r⟩ := n2 x hx
          exact ⟨o', List.mem_cons_of_mem _ ho', r⟩
        · obtain ⟨new', n1, n2⟩ := ih ha he'
          refine ⟨new' ++ [⟨t, .display .rst s⟩], by simpa using n1, fun x hx => ?_⟩
          rcases List.mem_append.mp hx with hx | hx
          · obtain ⟨o', ho', r⟩ := n2 x hx
            exact ⟨o', List.mem_cons_of_mem _ ho', r⟩
          · rw [List.mem_singleton] at hx
            exact ⟨o, List.mem_cons_self, t, s, hx, h3⟩

theorem doRst_ok {env : CronusEnv} {st st' : CronusState} {a : ℚ} {p : List String}
    (hq : IsHeap Task.jd st.queue) (h : doRiseSetTransit env st a = .ok (st', p)) :
    ∃ new, Adds st.queue st'.queue (⟨(env.fl (a + 2) : ℚ), .rst (env.fl (a + 1))⟩ :: new) ∧
      ∀ x ∈ new, ∃ o ∈ st.dict.map Prod.snd, ∃ t s, x = ⟨t, .display .rst s⟩ ∧
        transit a o.ra (1 / 86400) env.gLongitude = .ok (some t) := by
  unfold doRiseSetTransit at h
  simp only [bind, Except.bind] at h
  split at h
  · cases h
  · rename_i r he
    obtain ⟨q1, p1⟩ := r
    obtain ⟨new, n1, n2⟩ := rstEvents_ok _ (Adds.refl hq) he
    simp only at h
    split at h
    · cases h
    split at h
    · cases h
    split at h
    · cases h
    split at h
    · cases h
    cases h
    rw [List.append_nil] at n1
    exact ⟨new, n1.push _ _, n2⟩

theorem transitLoop_bounds {jd : ℚ} {th dT delta lon t : ℝ} {u : ℝ × ℝ × ℝ} : ∀ (k : ℕ) (m : ℝ),
    transitLoop jd th dT u delta lon k m = .ok (some t) →
    jd - 1 - dT - delta < t ∧ t < jd + 1 - dT + delta ∧ -1 < m + dT ∧ m + dT < 1 := by
  intro k
  induction k with
  | zero => intro m h; simp [transitLoop] at h
  | succ k ih =>
    intro m h
    unfold transitLoop at h
    simp only [bind, Except.bind] at h
    by_cases hn : -1 < m + dT ∧ m + dT < 1
    · rw [if_neg (by tauto)] at h
      split at h
      · cases h
      · split_ifs at h with hlt
        · cases h
          rw [abs_lt] at hlt
          exact ⟨by linarith, by linarith, hn⟩
        · obtain ⟨a, b, -⟩ := ih _ h
          exact ⟨a, b, hn⟩
    · rw [if_pos (by tauto)] at h
      cases h

/-- A transit is returned within a few days of the day in question, whatever the coordinates. -/
theorem transit_bounds {jd : ℚ} {u : ℝ × ℝ × ℝ} {delta lon t : ℝ} (h : transit jd u delta lon = .ok (some t)) :
    jd - 2 - delta < t ∧ t < jd + 1 - deltaTDays jd + delta := by
  unfold transit at h
  dsimp only at h
  rcases rsReduce_cases ((u.2.1 + lon - siderealTimeGreenwich jd) / pi2) with ⟨e, -⟩ | ⟨⟨m, e⟩, -⟩
  · rw [e] at h; cases h
  · rw [e] at h
    obtain ⟨a, b, c, d⟩ := transitLoop_bounds _ _ h
    obtain ⟨m0, -⟩ := rsReduce_ok e
    exact ⟨by linarith, b⟩

/-! ### The invariant of the queue -/

/-- What holds for a task in the queue of a run started with the year `start`: a task which computes an
event of a year (or day) is due before it. -/
def Due (start : ℤ) (t : Task) : Prop :=
  match t.job with
  | .display _ _ => True
  | .easter y => start ≤ y ∧ (t.jd = 0 ∨ t.jd = (cj y 3 1 : ℚ))
  | .equinox y season => start ≤ y ∧ (t.jd = 0 ∨
      ∃ a, equinoxApprox seasonNames (y - 1 : ℤ) season = .ok a ∧ equinox a season (1 / 86400) = .ok t.jd)
  | .rst a => (∃ n : ℤ, a = n - 1 / 2) ∧ cj start 1 1 ≤ a ∧
      (t.jd = 0 ∧ a = cj start 1 1 ∨ t.jd = ((a + 1 : ℚ) : ℝ))

/-- Tasks which may follow a task with the time `B`: they are not earlier, except for the events of
`doRiseSetTransit`, which may be a few days late. -/
def Above (B : ℝ) (t : Task) : Prop :=
  match t.job with
  | .display .rst _ => B ≤ t.jd + 3.1
  | _ => B ≤ t.jd

theorem above_of_le {B : ℝ} {t : Task} (h : B ≤ t.jd) : Above B t := by
  unfold Above
  split
  · norm_num; linarith
  · exact h

theorem Above.mono {B B' : ℝ} {t : Task} (h : Above B t) (hb : B' ≤ B) : Above B' t := by
  unfold Above at h ⊢
  split at h
  · exact hb.trans h
  · exact hb.trans h

/-- Events with a time. -/
def Dated (t : Task) : Prop := ∀ src str, t.job = .display src str → 1300000 ≤ t.jd

theorem runTask_new {env : CronusEnv} (hf : FloatLike env.fl) {start : ℤ} (hs : -1000 ≤ start)
    (hs2 : start < 2 ^ 31) {st st' : CronusState} {t : Task}
    {p : List String} (hq : IsHeap Task.jd st.queue) (hd : Due start t) (ht : t.jd < 2 ^ 40)
    (h : runTask env st t = .ok (st', p)) :
    ∃ new, Adds st.queue st'.queue new ∧ (∀ x ∈ new, Due start x ∧ Above t.jd x ∧ Dated x) ∧
      ((∃ src str, t.job = .display src str) → new = []) := by
  unfold runTask at h
  unfold Due at hd
  split at h
  · cases h
    exact ⟨[], Adds.refl hq, by simp, fun _ => rfl⟩
  · rename_i y hj
    rw [hj] at hd
    simp only [bind, Except.bind] at h
    split at h
    · cases h
    rename_i q' he
    cases h
    obtain ⟨s, -, ha⟩ := doEaster_ok hf (by omega) hq he
    refine ⟨_, ha, ?_, by rintro ⟨_, _, e⟩; rw [hj] at e; cases e⟩
    obtain ⟨b1, b2⟩ := easterJd_bounds y
    have b3 := march_step (show -4712 ≤ y by omega)
    have b4 := cj_march (show -1000 ≤ y by omega)
    have b1' : ((cj y 3 1 : ℚ) : ℝ) + 21 ≤ (easterJd y : ℚ) := by exact_mod_cast b1
    have b3' : ((cj y 3 1 : ℚ) : ℝ) + 364 ≤ (cj (y + 1) 3 1 : ℚ) := by exact_mod_cast b3
    have b4' : (1355000 : ℝ) ≤ (cj y 3 1 : ℚ) := by exact_mod_cast b4
    have bt : t.jd ≤ (cj y 3 1 : ℚ) := by
      rcases hd.2 with e | e
      · rw [e]; linarith
      · rw [e]
    intro x hx
    simp only [List.mem_cons, List.not_mem_nil, or_false] at hx
    rcases hx with rfl | rfl
    · refine ⟨⟨by omega, .inr rfl⟩, above_of_le ?_, fun _ _ e => by cases e⟩
      show t.jd ≤ ((cj (y + 1) 3 1 : ℚ) : ℝ)
      linarith
    · refine ⟨trivial, above_of_le ?_, fun _ _ _ => ?_⟩
      · show t.jd ≤ ((easterJd y : ℚ) : ℝ)
        linarith
      · show (1300000 : ℝ) ≤ ((easterJd y : ℚ) : ℝ)
        linarith
  · rename_i y season hj
    rw [hj] at hd
    simp only [bind, Except.bind] at h
    split at h
    · cases h
    rename_i q' he
    cases h
    obtain ⟨a, jd, lt, zone, s, title, h1, h2, -, -, -, ha⟩ := doEquinox_ok hq he
    refine ⟨_, ha, ?_, by rintro ⟨_, _, e⟩; rw [hj] at e; cases e⟩
    have b := (equinox_near_approx h1 h2).2
    have bt : t.jd ≤ jd := by
      rcases hd.2 with e | ⟨a0, e0, e1⟩
      · rw [e]; linarith
      · have := equinox_next e0 e1 (by rw [sub_add_cancel]; exact h1) h2
        linarith
    intro x hx
    simp only [List.mem_cons, List.not_mem_nil, or_false] at hx
    rcases hx with rfl | rfl
    · refine ⟨⟨by omega, .inr ⟨a, by rw [add_sub_cancel_right]; exact h1, h2⟩⟩, above_of_le bt, fun _ _ e => by cases e⟩
    · refine ⟨trivial, above_of_le bt, fun _ _ _ => ?_⟩
      show (1300000 : ℝ) ≤ jd
      linarith
  · rename_i a hj
    rw [hj] at hd
    obtain ⟨⟨n, rfl⟩, ha, hd⟩ := hd
    obtain ⟨c1, c2⟩ := cj_january hs hs2
    have an : (n : ℚ) - 1 / 2 ≤ 2 ^ 40 := by
      rcases hd with ⟨-, e⟩ | e
      · rw [e]; exact c2
      · have : (((n : ℚ) - 1 / 2 + 1 : ℚ) : ℝ) < ((2 ^ 40 : ℚ) : ℝ) := by rw [← e]; push_cast; exact ht
        have := Rat.cast_lt.mp this
        linarith
    have nb : |n| + 2 ≤ 2 ^ 50 := by
      have l : (0 : ℚ) ≤ n := by linarith
      have l' : 0 ≤ n := by exact_mod_cast l
      have u : (n : ℚ) ≤ ((2 ^ 40 + 1 : ℤ) : ℚ) := by push_cast; linarith
      have u' : n ≤ 2 ^ 40 + 1 := by exact_mod_cast u
      rw [abs_of_nonneg l']; omega
    have f2 : env.fl ((n : ℚ) - 1 / 2 + 2) = (n : ℚ) - 1 / 2 + 2 := by
      have := fl_half hf (n := n + 2) ((abs_add_le _ _).trans (by simpa using nb))
      rw [show ((n : ℚ) - 1 / 2 + 2) = ((n + 2 : ℤ) : ℚ) - 1 / 2 by push_cast; ring, this]
    have f1 : env.fl ((n : ℚ) - 1 / 2 + 1) = (n : ℚ) - 1 / 2 + 1 := by
      have := fl_half hf (n := n + 1) ((abs_add_le _ _).trans (by simp; omega))
      rw [show ((n : ℚ) - 1 / 2 + 1) = ((n + 1 : ℤ) : ℚ) - 1 / 2 by push_cast; ring, this]
    obtain ⟨new, n1, n2⟩ := doRst_ok hq h
    rw [f1, f2] at n1
    refine ⟨_, n1, ?_, by rintro ⟨_, _, e⟩; rw [hj] at e; cases e⟩
    have hr : (1355000 : ℝ) ≤ (((n : ℚ) - 1 / 2 : ℚ) : ℝ) := by
      have : (1355000 : ℚ) ≤ (n : ℚ) - 1 / 2 := by linarith
      exact_mod_cast this
    have bt : t.jd ≤ (((n : ℚ) - 1 / 2 : ℚ) : ℝ) + 1 := by
      rcases hd with ⟨e, -⟩ | e
      · rw [e]; linarith
      · rw [e]; push_cast; linarith
    intro x hx
    rcases List.mem_cons.mp hx with rfl | hx
    · refine ⟨⟨⟨n + 1, by push_cast; ring⟩, by linarith, .inr (by push_cast; ring)⟩, above_of_le ?_, fun _ _ e => by cases e⟩
      show t.jd ≤ (((n : ℚ) - 1 / 2 + 2 : ℚ) : ℝ)
      push_cast at bt ⊢
      linarith
    · obtain ⟨o, -, td, s, rfl, htr⟩ := n2 x hx
      obtain ⟨l, -⟩ := transit_bounds htr
      refine ⟨trivial, ?_, fun _ _ _ => ?_⟩
      · show t.jd ≤ td + 3.1
        norm_num at l bt ⊢
        linarith
      · show (1300000 : ℝ) ≤ td
        norm_num at l hr ⊢
        linarith

end Verif

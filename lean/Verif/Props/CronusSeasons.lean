import Verif.Props.Cronus
import Verif.Props.CronusWitness

/-!
# C95: the lines of the seasons of `cronus`
-/

namespace Verif
open Real Spec

/-- The events the user expects to see named, by season. -/
def Spec.seasonTitle : String → String
  | "spring" => "Vernal Equinox"
  | "summer" => "Summer Solstice"
  | "autumn" => "Autumnal Equinox"
  | "winter" => "Winter Solstice"
  | _ => ""

/-- Displays of a season. -/
def Job.isSeasonShow : Job → Bool
  | .display .season _ => true
  | _ => false

/-- Tasks which compute a season. -/
def Job.isSeasonWorker : Job → Bool
  | .equinox _ _ => true
  | _ => false

noncomputable section

/-- The time found for a season of a year. -/
def SeasonTime (y : ℤ) (s : String) (t : ℝ) : Prop :=
  ∃ a, equinoxApprox seasonNames y s = .ok a ∧ equinox a s (1 / 86400) = .ok t

/-- The line for a season of a year and its time: the local time to the second, and the name of the event. -/
def SeasonLine (env : CronusEnv) (y : ℤ) (s : String) (t : ℝ) (text : String) : Prop :=
  SeasonTime y s t ∧ ∃ lt zone str, env.utToLt (dtToUt env.fl (env.rd t)) = .ok (lt, zone) ∧
    ltToStr env.fl lt (zoneStr zone) "second" = .ok str ∧ text = str ++ " " ++ seasonTitle s

theorem SeasonTime.unique {y : ℤ} {s : String} {t t' : ℝ} (h : SeasonTime y s t) (h' : SeasonTime y s t') : t = t' := by
  obtain ⟨a, h1, h2⟩ := h
  obtain ⟨a', h1', h2'⟩ := h'
  rw [h1] at h1'
  cases h1'
  rw [h2] at h2'
  cases h2'
  rfl

theorem SeasonTime.bounds {y : ℤ} {s : String} {t : ℝ} (h : SeasonTime y s t) :
    -1000 ≤ y ∧ y ≤ 3000 ∧ s ∈ seasonNames ∧ 1340000 ≤ t := by
  obtain ⟨a, h1, h2⟩ := h
  obtain ⟨h3, h4, -⟩ := equinoxApprox_domain h1
  exact ⟨h3.1, h3.2, h4, (equinox_near_approx h1 h2).2⟩

/-- Every season of the years -1000 to 3000 has a time. -/
theorem SeasonTime.exists {y : ℤ} (h : -1000 ≤ y ∧ y ≤ 3000) {s : String} (hs : s ∈ seasonNames) :
    ∃ t, SeasonTime y s t := by
  have hc : ∃ circ, (s, circ) ∈ seasonAngle := by
    unfold seasonAngle
    unfold seasonNames at hs
    simp only [List.mem_cons, List.not_mem_nil, or_false] at hs
    rcases hs with rfl | rfl | rfl | rfl
    · exact ⟨_, by simp; rfl⟩
    · exact ⟨_, by simp; rfl⟩
    · exact ⟨_, by simp; rfl⟩
    · exact ⟨_, by simp; rfl⟩
  obtain ⟨circ, hc⟩ := hc
  obtain ⟨a, x, ha, -, -, -, ht⟩ := equinox_of_approx y h s circ hc
  obtain ⟨t, ht, -⟩ := ht (1 / 86400) (by norm_num)
  exact ⟨t, a, ha, ht⟩

theorem SeasonTime.mono {y z : ℤ} {s : String} {t t' : ℝ} (h : SeasonTime y s t) (h' : SeasonTime z s t')
    (hyz : y ≤ z) : t ≤ t' := by
  have key : ∀ k : ℕ, ∀ t', SeasonTime (y + k) s t' → t ≤ t' := by
    intro k
    induction k with
    | zero =>
      intro t' h'
      rw [Nat.cast_zero, add_zero] at h'
      exact (h.unique h').le
    | succ k ih =>
      intro t' h'
      have b := h'.bounds
      have b0 := h.bounds
      obtain ⟨t1, h1⟩ := SeasonTime.exists (y := y + k) (s := s) (by push_cast at b; omega) b.2.2.1
      have := ih _ h1
      obtain ⟨a, e1, e2⟩ := h1
      obtain ⟨a', e1', e2'⟩ := h'
      rw [show y + ((k + 1 : ℕ) : ℤ) = y + k + 1 by push_cast; ring] at e1'
      have := equinox_next e1 e2 e1' e2'
      linarith
  obtain ⟨k, rfl⟩ : ∃ k : ℕ, z = y + k := ⟨(z - y).toNat, by omega⟩
  exact key k t' h'

/-- The time of a season, and zero where there is none. -/
def seasonJd (y : ℤ) (s : String) : ℝ := by
  classical exact if h : ∃ t, SeasonTime y s t then h.choose else 0

theorem seasonJd_eq {y : ℤ} {s : String} {t : ℝ} (h : SeasonTime y s t) : seasonJd y s = t := by
  have e : ∃ t, SeasonTime y s t := ⟨t, h⟩
  unfold seasonJd
  rw [dif_pos e]
  exact e.choose_spec.unique h

/-- The text of a season. -/
def seasonStr (env : CronusEnv) (y : ℤ) (s : String) : String := by
  classical exact if h : ∃ x, SeasonLine env y s (seasonJd y s) x then h.choose else ""

theorem SeasonLine.unique {env : CronusEnv} {y : ℤ} {s : String} {t : ℝ} {x x' : String}
    (h : SeasonLine env y s t x) (h' : SeasonLine env y s t x') : x = x' := by
  obtain ⟨-, lt, z, str, h1, h2, rfl⟩ := h
  obtain ⟨-, lt', z', str', h1', h2', rfl⟩ := h'
  rw [h1] at h1'
  cases h1'
  rw [h2] at h2'
  cases h2'
  rfl

theorem seasonStr_eq {env : CronusEnv} {y : ℤ} {s : String} {t : ℝ} {x : String}
    (h : SeasonLine env y s t x) : seasonStr env y s = x := by
  have h' := h
  rw [← seasonJd_eq h.1] at h'
  have e : ∃ x, SeasonLine env y s (seasonJd y s) x := ⟨x, h'⟩
  unfold seasonStr
  rw [dif_pos e]
  exact e.choose_spec.unique h'

def seasonShow (env : CronusEnv) (y : ℤ) (s : String) : Task := ⟨seasonJd y s, .display .season (seasonStr env y s)⟩

theorem seasonTitles_spec {s title : String} (h : (s, title) ∈ seasonTitles) : title = seasonTitle s := by
  unfold seasonTitles at h
  simp only [List.mem_cons, List.not_mem_nil, or_false, Prod.mk.injEq] at h
  rcases h with ⟨rfl, rfl⟩ | ⟨rfl, rfl⟩ | ⟨rfl, rfl⟩ | ⟨rfl, rfl⟩ <;> rfl

/-- The displays, and the tasks which compute, among some tasks. -/
def seasonShows (M : List Task) : List Task := M.filter fun t => t.job.isSeasonShow
def seasonWorkers (M : List Task) : List Task := M.filter fun t => t.job.isSeasonWorker

/-- What a task adds to the tasks of the seasons. -/
theorem runTask_season {env : CronusEnv} (hf : FloatLike env.fl) {start : ℤ} (hs : -1000 ≤ start)
    {st st' : CronusState} {t : Task} {p : List String} (hq : IsHeap Task.jd st.queue) (hd : Due start t)
    (h : runTask env st t = .ok (st', p)) :
    ∃ new, Adds st.queue st'.queue new ∧
      (∀ y s, t.job = .equinox y s → SeasonLine env y s (seasonJd y s) (seasonStr env y s) ∧
        new = [⟨seasonJd y s, .equinox (y + 1) s⟩, seasonShow env y s]) ∧
      (t.job.isSeasonWorker = false → seasonShows new = [] ∧ seasonWorkers new = []) ∧
      (∀ str, t.job = .display .season str → p = [str]) := by
  unfold runTask at h
  unfold Due at hd
  split at h
  · rename_i src str hj
    cases h
    rw [hj]
    exact ⟨[], Adds.refl hq, by simp, fun _ => ⟨rfl, rfl⟩, fun _ e => by cases e; rfl⟩
  · rename_i y hj
    rw [hj] at hd ⊢
    simp only [bind, Except.bind] at h
    split at h
    · cases h
    rename_i q' he
    cases h
    obtain ⟨s, h1, ha⟩ := doEaster_ok hf (by omega) hq he
    exact ⟨_, ha, by simp, fun _ => ⟨rfl, rfl⟩, fun _ e => by cases e⟩
  · rename_i y season hj
    rw [hj]
    simp only [bind, Except.bind] at h
    split at h
    · cases h
    rename_i q' he
    cases h
    obtain ⟨a, jd, lt, zone, s, title, h1, h2, h3, h4, h5, ha⟩ := doEquinox_ok hq he
    refine ⟨_, ha, fun y' s' e => ?_, (fun e => by cases e), fun _ e => by cases e⟩
    cases e
    have l : SeasonLine env y season jd (s ++ " " ++ title) :=
      ⟨⟨a, h1, h2⟩, lt, zone, s, h3, h4, by rw [seasonTitles_spec h5]⟩
    unfold seasonShow
    rw [seasonJd_eq l.1, seasonStr_eq l]
    exact ⟨l, rfl⟩
  · rename_i a hj
    rw [hj]
    obtain ⟨new, n1, n2⟩ := doRst_ok hq h
    refine ⟨_, n1, by simp, fun _ => ?_, fun _ e => by cases e⟩
    unfold seasonShows seasonWorkers
    rw [List.filter_eq_nil_iff, List.filter_eq_nil_iff]
    constructor
    all_goals
      intro x hx
      rcases List.mem_cons.mp hx with rfl | hx
      · simp [Job.isSeasonShow, Job.isSeasonWorker]
      · obtain ⟨o, -, t, s, rfl, -⟩ := n2 x hx
        simp [Job.isSeasonShow, Job.isSeasonWorker]

/-- The displays of the first `g s` years of each season. -/
def seasonAll (env : CronusEnv) (start : ℤ) (g : String → ℕ) : List Task :=
  seasonNames.flatMap fun s => (List.range (g s)).map fun k : ℕ => seasonShow env (start + k) s

/-- The task which computes the next year of a season. -/
def seasonNext (start : ℤ) (g : String → ℕ) (s : String) : Task :=
  ⟨if g s = 0 then 0 else seasonJd (start + g s - 1) s, .equinox (start + g s) s⟩

/-- The tasks done so far and those which wait, when `g s` years of the season `s` have been computed. -/
structure SeasonState (env : CronusEnv) (start : ℤ) (g : String → ℕ) (done M : List Task) : Prop where
  shows : (seasonShows (done ++ M)).Perm (seasonAll env start g)
  workers : (seasonWorkers M).Perm (seasonNames.map (seasonNext start g))
  lines : ∀ s ∈ seasonNames, ∀ k < g s,
    SeasonLine env (start + (k : ℕ)) s (seasonJd (start + k) s) (seasonStr env (start + k) s)

theorem seasonNames_nodup : seasonNames.Nodup := by decide

theorem seasonAll_update (env : CronusEnv) (start : ℤ) (g : String → ℕ) {s : String} (hs : s ∈ seasonNames) :
    (seasonAll env start (Function.update g s (g s + 1))).Perm (seasonShow env (start + g s) s :: seasonAll env start g) := by
  have p := List.perm_cons_erase hs
  have hn : s ∉ seasonNames.erase s := seasonNames_nodup.not_mem_erase
  have e : ((seasonNames.erase s).flatMap fun s' => (List.range (Function.update g s (g s + 1) s')).map
      fun k : ℕ => seasonShow env (start + k) s') =
      (seasonNames.erase s).flatMap fun s' => (List.range (g s')).map fun k : ℕ => seasonShow env (start + k) s' := by
    refine List.flatMap_congr fun x hx => ?_
    have hne : x ≠ s := by rintro rfl; exact hn hx
    rw [Function.update_of_ne hne]
  unfold seasonAll
  refine (p.flatMap_right _).trans ?_
  refine List.Perm.trans ?_ ((p.flatMap_right _).symm.cons _)
  rw [List.flatMap_cons, List.flatMap_cons, e, Function.update_self, List.range_succ, List.map_append,
    List.map_cons, List.map_nil, List.append_assoc]
  exact List.perm_middle

theorem seasonNext_update (start : ℤ) (g : String → ℕ) {s : String} (hs : s ∈ seasonNames) {W : List Task}
    (h : (seasonNext start g s :: W).Perm (seasonNames.map (seasonNext start g))) :
    ((⟨seasonJd (start + g s) s, .equinox (start + g s + 1) s⟩ : Task) :: W).Perm
      (seasonNames.map (seasonNext start (Function.update g s (g s + 1)))) := by
  have p := List.perm_cons_erase hs
  have hn : s ∉ seasonNames.erase s := seasonNames_nodup.not_mem_erase
  have e : (seasonNames.erase s).map (seasonNext start (Function.update g s (g s + 1))) =
      (seasonNames.erase s).map (seasonNext start g) := by
    refine List.map_congr_left fun x hx => ?_
    unfold seasonNext
    have hne : x ≠ s := by rintro rfl; exact hn hx
    rw [Function.update_of_ne hne]
  have h1 := h.trans (p.map _)
  rw [List.map_cons, List.perm_cons] at h1
  refine List.Perm.trans ?_ (p.map _).symm
  rw [List.map_cons, e]
  have e2 : seasonNext start (Function.update g s (g s + 1)) s =
      ⟨seasonJd (start + g s) s, .equinox (start + g s + 1) s⟩ := by
    unfold seasonNext
    rw [Function.update_self, if_neg (by omega)]
    push_cast
    rw [show start + ((g s : ℤ) + 1) - 1 = start + g s by ring, add_assoc]
  rw [e2]
  exact h1.cons _

/-- One pass, for the seasons. -/
theorem season_pass {env : CronusEnv} (hf : FloatLike env.fl) {start : ℤ} (hs : -1000 ≤ start)
    {c c' : CronusCfg} {p : List String} (i : CronusInv start c) {g : String → ℕ} {done : List Task}
    (he : SeasonState env start g done (c.cur :: c.st.queue)) (h : cronusPass env c = .ok (c', p)) :
    (∃ g', SeasonState env start g' (done ++ [c.cur]) (c'.cur :: c'.st.queue)) ∧
      (∀ str, c.cur.job = .display .season str → p = [str]) := by
  obtain ⟨st, h1, h2⟩ := cronusPass_ok h
  obtain ⟨new, n1, n2, n3, n4⟩ := runTask_season hf hs i.heap (i.due _ List.mem_cons_self) h1
  obtain ⟨p1, -⟩ := popTask_ok n1.1 h2
  have q := p1.symm.trans n1.2
  refine ⟨?_, n4⟩
  obtain ⟨e1, e2, e3⟩ := he
  have qs : (seasonShows (done ++ [c.cur] ++ (c'.cur :: c'.st.queue))).Perm
      (seasonShows new ++ seasonShows (done ++ (c.cur :: c.st.queue))) := by
    unfold seasonShows
    rw [← List.filter_append]
    refine List.Perm.filter _ ?_
    have a := q.append_left (done ++ [c.cur])
    refine a.trans ?_
    rw [List.append_assoc, ← List.append_assoc new]
    refine List.Perm.trans ?_ ((List.perm_append_comm (l₁ := done) (l₂ := new)).append_right _)
    rw [List.append_assoc]
    refine List.Perm.append_left _ ?_
    rw [List.singleton_append]
    exact List.perm_middle.symm
  have qw : (seasonWorkers (c'.cur :: c'.st.queue)).Perm (seasonWorkers new ++ seasonWorkers c.st.queue) := by
    unfold seasonWorkers
    rw [← List.filter_append]
    exact q.filter _
  cases hw : c.cur.job.isSeasonWorker with
  | false =>
    obtain ⟨m1, m2⟩ := n3 hw
    rw [m1, List.nil_append] at qs
    rw [m2, List.nil_append] at qw
    refine ⟨g, qs.trans e1, ?_, e3⟩
    unfold seasonWorkers at e2 qw ⊢
    rw [List.filter_cons_of_neg (by rw [hw]; simp)] at e2
    exact qw.trans e2
  | true =>
    cases hj : c.cur.job with
    | equinox y s =>
      obtain ⟨l, rfl⟩ := n2 y s hj
      unfold seasonWorkers at e2
      rw [List.filter_cons_of_pos (by exact hw)] at e2
      have hm := e2.mem_iff.mp List.mem_cons_self
      obtain ⟨s', hs', e⟩ := List.mem_map.mp hm
      have ej : (seasonNext start g s').job = .equinox y s := by rw [e]; exact hj
      unfold seasonNext at ej
      simp only [Job.equinox.injEq] at ej
      obtain ⟨rfl, rfl⟩ := ej
      rw [← e] at e2
      refine ⟨Function.update g s' (g s' + 1), qs.trans ?_, qw.trans ?_, ?_⟩
      · refine List.Perm.trans ?_ (seasonAll_update env start g hs').symm
        exact e1.cons _
      · exact seasonNext_update start g hs' e2
      · intro s hs k hk
        by_cases hss : s = s'
        · subst hss
          rw [Function.update_self] at hk
          rcases Nat.lt_succ_iff_lt_or_eq.mp hk with hk | rfl
          · exact e3 s hs k hk
          · exact l
        · rw [Function.update_of_ne hss] at hk
          exact e3 s hs k hk
    | display _ _ | easter _ | rst _ => rw [hj] at hw; cases hw

theorem season_steps {env : CronusEnv} (hf : FloatLike env.fl) {start : ℤ} (hs : -1000 ≤ start)
    (hs2 : start < 2 ^ 31) {stop : ℝ} (hstop : stop ≤ 2 ^ 40) {c c' : CronusCfg} {l : List (Task × List String)}
    (h : CronusSteps env stop c l c') : CronusInv start c → ∀ g done,
      SeasonState env start g done (c.cur :: c.st.queue) →
      (∃ g', SeasonState env start g' (done ++ l.map Prod.fst) (c'.cur :: c'.st.queue)) ∧ CronusInv start c' ∧
        ∀ x ∈ l, ∀ str, x.1.job = .display .season str → x.2 = [str] := by
  induction h with
  | refl => intro i g done hn; exact ⟨⟨g, by simpa using hn⟩, i, by simp⟩
  | @step c c1 c2 l p hlt hp _ ih =>
    intro i g done hn
    obtain ⟨i', -⟩ := i.pass hf hs hs2 (by linarith) hp
    obtain ⟨⟨g', a⟩, b⟩ := season_pass hf hs i hn hp
    obtain ⟨⟨g'', a'⟩, i'', b'⟩ := ih i' _ _ a
    refine ⟨⟨g'', ?_⟩, i'', ?_⟩
    · simpa using a'
    · intro x hx
      rcases List.mem_cons.mp hx with rfl | hx
      · exact b
      · exact b' x hx

/-- The lines of the seasons in a trace, with the time of their task and what is printed. -/
def seasonLines (l : List (Task × List String)) : List (ℝ × List String) :=
  (l.filter fun x => x.1.job.isSeasonShow).map fun x => (x.1.jd, x.2)

/-- The line of a season, with its time. -/
def seasonLine (env : CronusEnv) (y : ℤ) (s : String) : ℝ × List String := (seasonJd y s, [seasonStr env y s])

theorem isSeasonShow_iff {j : Job} : j.isSeasonShow = true ↔ ∃ str, j = .display .season str := by
  constructor
  · intro h
    unfold Job.isSeasonShow at h
    split at h
    · exact ⟨_, rfl⟩
    · cases h
  · rintro ⟨str, rfl⟩
    rfl

/-- A task and what it prints. -/
def taskLine (t : Task) : ℝ × List String :=
  (t.jd, match t.job with | .display _ str => [str] | _ => [])

theorem seasonLines_eq {l : List (Task × List String)}
    (h : ∀ x ∈ l, ∀ str, x.1.job = .display .season str → x.2 = [str]) :
    seasonLines l = (seasonShows (l.map Prod.fst)).map taskLine := by
  unfold seasonLines seasonShows
  rw [List.filter_map, List.map_map]
  refine List.map_congr_left fun x hx => ?_
  obtain ⟨h1, h2⟩ := List.mem_filter.mp hx
  obtain ⟨str, e⟩ := isSeasonShow_iff.mp h2
  unfold taskLine
  simp only [Function.comp, e, h x h1 str e]

/-- The invariant at the end of a run. -/
theorem cronus_season_state {env : CronusEnv} (hf : FloatLike env.fl) {start stop : ℤ} (hs : -1000 ≤ start)
    (hstop : stop ≤ 2 ^ 40) {l : List (Task × List String)} {c : CronusCfg} (h : CronusRun env start stop l c) :
    (∃ g, SeasonState env start g (l.map Prod.fst) (c.cur :: c.st.queue)) ∧ CronusInv start c ∧
      (∀ x ∈ l, ∀ str, x.1.job = .display .season str → x.2 = [str]) := by
  cases h with
  | intro h1 h2 h3 =>
    obtain ⟨y2, rfl, i, z⟩ := cronusInit_inv hf hs h1 h2
    obtain ⟨-, -, ih, ip⟩ := cronusInit_ok hf (by omega) h1
    obtain ⟨p1, -⟩ := popTask_ok ih h2
    have q := p1.symm.trans ip
    have := season_steps hf hs y2 (by exact_mod_cast hstop) h3 i (fun _ => 0) [] ?_
    · simpa using this
    · refine ⟨?_, ?_, by simp⟩
      · rw [List.nil_append]
        have := q.filter fun t => t.job.isSeasonShow
        unfold seasonShows
        refine this.trans ?_
        simp [Job.isSeasonShow, seasonAll]
      · have := q.filter fun t => t.job.isSeasonWorker
        unfold seasonWorkers
        refine this.trans ?_
        simp only [seasonNames, List.map_cons, List.map_nil, seasonNext, Nat.cast_zero, add_zero, if_true]
        simp only [Job.isSeasonWorker, List.filter_cons, if_true, List.filter_nil, Bool.false_eq_true, if_false]
        exact List.reverse_perm [_, _, _, _]

/-- C95: every line of a season displayed in a run is that of a season of a year from `start` on, with its time and
its name; and no season of a year is displayed twice. -/
theorem cronus_season_lines {env : CronusEnv} (hf : FloatLike env.fl) {start stop : ℤ} (hs : -1000 ≤ start)
    (hstop : stop ≤ 2 ^ 40) {l : List (Task × List String)} {c : CronusCfg} (h : CronusRun env start stop l c) :
    (∀ x ∈ seasonLines l, ∃ y s text, start ≤ y ∧ s ∈ seasonNames ∧ SeasonLine env y s x.1 text ∧ x.2 = [text]) ∧
      ∃ g : String → ℕ, (seasonLines l).Subperm
        (seasonNames.flatMap fun s => (List.range (g s)).map fun k : ℕ => seasonLine env (start + k) s) := by
  obtain ⟨⟨g, e1, e2, e3⟩, i, hp⟩ := cronus_season_state hf hs hstop h
  have em : (seasonNames.flatMap fun s => (List.range (g s)).map fun k : ℕ => seasonLine env (start + k) s) =
      (seasonAll env start g).map taskLine := by
    unfold seasonAll
    rw [List.map_flatMap]
    refine List.flatMap_congr fun s _ => ?_
    rw [List.map_map]
    rfl
  have sp : (seasonLines l).Subperm
      (seasonNames.flatMap fun s => (List.range (g s)).map fun k : ℕ => seasonLine env (start + k) s) := by
    rw [em, seasonLines_eq hp]
    refine List.Subperm.trans ?_ ((e1.map taskLine).subperm)
    refine (List.Sublist.map _ ?_).subperm
    exact (List.sublist_append_left _ _).filter _
  refine ⟨fun x hx => ?_, g, sp⟩
  obtain ⟨s, hs', hm⟩ := List.mem_flatMap.mp (sp.subset hx)
  obtain ⟨k, hk, rfl⟩ := List.mem_map.mp hm
  exact ⟨start + k, s, _, by omega, hs', e3 s hs' k (List.mem_range.mp hk), rfl⟩

/-- C95: when the loop ends, the lines of the seasons displayed are those of all the seasons before `stop` of the
years from `start` on, each once. -/
theorem cronus_seasons_complete {env : CronusEnv} (hf : FloatLike env.fl) {start stop : ℤ} (hs : -1000 ≤ start)
    (hstop : stop ≤ 2 ^ 40) {l : List (Task × List String)} {c : CronusCfg} (h : CronusRun env start stop l c)
    (h0 : 0 < stop) (hend : (stop : ℝ) ≤ c.cur.jd) :
    ∃ n : String → ℕ, (seasonLines l).Perm
        (seasonNames.flatMap fun s => (List.range (n s)).map fun k : ℕ => seasonLine env (start + k) s) ∧
      ∀ s ∈ seasonNames, ∀ y, start ≤ y → (y < start + n s ↔ ∃ t, SeasonTime y s t ∧ t < stop) := by
  have lt := (cronus_stop_is_jd hf hs h).1
  obtain ⟨⟨g, e1, e2, e3⟩, i, hp⟩ := cronus_season_state hf hs hstop h
  have all : ∀ x ∈ c.cur :: c.st.queue, (stop : ℝ) ≤ x.jd := by
    intro x hx
    rcases List.mem_cons.mp hx with rfl | hx
    · exact hend
    · exact hend.trans (i.least x hx)
  have s0 : (0 : ℝ) < stop := by exact_mod_cast h0
  -- the years computed of a season
  have key : ∀ s ∈ seasonNames, 0 < g s ∧ (stop : ℝ) ≤ seasonJd (start + g s - 1) s := by
    intro s hs'
    have hm : seasonNext start g s ∈ seasonWorkers (c.cur :: c.st.queue) :=
      e2.mem_iff.mpr (List.mem_map.mpr ⟨s, hs', rfl⟩)
    have := all _ (List.mem_filter.mp hm).1
    unfold seasonNext at this
    split_ifs at this with hg
    · simp only at this; linarith
    · exact ⟨by omega, this⟩
  classical
  -- of these, the ones before `stop`
  have mono : ∀ s ∈ seasonNames, ∀ k < g s, ∀ m ≤ k, seasonJd (start + m) s ≤ seasonJd (start + k) s := by
    intro s hs' k hk m hm
    exact (e3 s hs' m (by omega)).1.mono (e3 s hs' k hk).1 (by omega)
  have ex : ∀ s ∈ seasonNames, ∃ n ≤ g s, ∀ k < g s, (k < n ↔ seasonJd (start + (k : ℕ)) s < stop) := by
    intro s hs'
    have hne : ∃ k, g s ≤ k ∨ (stop : ℝ) ≤ seasonJd (start + (k : ℕ)) s := ⟨g s, .inl (le_refl _)⟩
    refine ⟨Nat.find hne, Nat.find_min' hne (.inl (le_refl _)), fun k hk => ⟨fun hkn => ?_, fun hlt => ?_⟩⟩
    · have := Nat.find_min hne hkn
      push Not at this
      exact this.2
    · by_contra hge
      have hge : Nat.find hne ≤ k := by omega
      rcases Nat.find_spec hne with a | a
      · omega
      · have := mono s hs' k hk _ hge
        linarith
  choose! n n1 n2 using ex
  have sp : (seasonShows (l.map Prod.fst)).Perm (seasonAll env start n) := by
    have f1 : (seasonShows (l.map Prod.fst ++ c.cur :: c.st.queue)).filter (fun t => decide (t.jd < (stop : ℝ))) =
        seasonShows (l.map Prod.fst) := by
      unfold seasonShows
      rw [List.filter_append, List.filter_append]
      have a : ((c.cur :: c.st.queue).filter fun t => t.job.isSeasonShow).filter (fun t => decide (t.jd < (stop : ℝ))) = [] := by
        rw [List.filter_eq_nil_iff]
        intro x hx
        have := all x (List.mem_filter.mp hx).1
        simpa using this
      rw [a, List.append_nil, List.filter_eq_self]
      intro x hx
      obtain ⟨z, hz, rfl⟩ := List.mem_map.mp (List.mem_filter.mp hx).1
      simpa using lt z hz
    have f2 : (seasonAll env start g).filter (fun t => decide (t.jd < (stop : ℝ))) = seasonAll env start n := by
      unfold seasonAll
      rw [List.filter_flatMap]
      refine List.flatMap_congr fun s hs' => ?_
      rw [List.filter_map]
      obtain ⟨d, hd⟩ := Nat.exists_eq_add_of_le (n1 s hs')
      congr 1
      have e : (List.range (g s)).filter ((fun t : Task => decide (t.jd < (stop : ℝ))) ∘ fun k : ℕ => seasonShow env (start + k) s) =
          (List.range (g s)).filter (fun k => decide (k < n s)) := by
        refine List.filter_congr fun k hk => ?_
        have := n2 s hs' k (List.mem_range.mp hk)
        simp only [Function.comp, seasonShow]
        exact decide_eq_decide.mpr this.symm
      rw [e, hd, List.range_add, List.filter_append]
      have a1 : (List.range (n s)).filter (fun k => decide (k < n s)) = List.range (n s) := by
        rw [List.filter_eq_self]; intro k hk; simpa using hk
      have a2 : ((List.range d).map fun x => n s + x).filter (fun k => decide (k < n s)) = [] := by
        rw [List.filter_eq_nil_iff]; intro k hk; simp at hk ⊢; obtain ⟨_, _, rfl⟩ := hk; omega
      rw [a1, a2, List.append_nil]
    rw [← f1, ← f2]
    exact e1.filter _
  refine ⟨n, ?_, fun s hs' y hy => ?_⟩
  · rw [seasonLines_eq hp]
    have em : (seasonNames.flatMap fun s => (List.range (n s)).map fun k : ℕ => seasonLine env (start + k) s) =
        (seasonAll env start n).map taskLine := by
      unfold seasonAll
      rw [List.map_flatMap]
      refine List.flatMap_congr fun s _ => ?_
      rw [List.map_map]
      rfl
    rw [em]
    exact sp.map _
  · obtain ⟨k, rfl⟩ : ∃ k : ℕ, y = start + k := ⟨(y - start).toNat, by omega⟩
    have k1 := n1 s hs'
    obtain ⟨g0, gl⟩ := key s hs'
    constructor
    · intro hlt
      have hk : k < n s := by omega
      exact ⟨_, (e3 s hs' k (by omega)).1, (n2 s hs' k (by omega)).mp hk⟩
    · rintro ⟨t, ht, htl⟩
      by_contra hge
      by_cases hk : k < g s
      · have := (n2 s hs' k hk).mpr (by rw [seasonJd_eq ht]; exact htl)
        omega
      · have b := (e3 s hs' (g s - 1) (by omega)).1
        have eq : start + ((g s - 1 : ℕ) : ℤ) = start + g s - 1 := by omega
        rw [eq] at b
        have := b.mono ht (by omega)
        linarith

/-- C95: the time of a line is that of the event to a twentieth of a second: when the apparent longitude of the Sun
is 0, 90, 180 or 270 degrees. -/
theorem seasonLine_time {env : CronusEnv} {y : ℤ} {s : String} {t : ℝ} {text : String} (h : SeasonLine env y s t text) :
    ∃ circ x, (s, circ) ∈ seasonAngle ∧ IsEvent circ x ∧ |t - x| ≤ 0.056 / 86400 := by
  obtain ⟨⟨a, h1, h2⟩, -⟩ := h
  obtain ⟨hy, -, circ, hc⟩ := equinoxApprox_domain h1
  obtain ⟨a', x, ha, hx, -, -, ht⟩ := equinox_of_approx y hy s circ hc
  rw [h1] at ha
  cases ha
  obtain ⟨t', ht', b⟩ := ht (1 / 86400) (by norm_num)
  rw [h2] at ht'
  cases ht'
  exact ⟨circ, x, hc, hx, b.trans (by norm_num)⟩

/-- C95: the lines of the seasons are displayed in the order of their times. -/
theorem cronus_season_lines_ordered {env : CronusEnv} (hf : FloatLike env.fl) {start stop : ℤ} (hs : -1000 ≤ start)
    (hstop : stop ≤ 2 ^ 40) {l : List (Task × List String)} {c : CronusCfg} (h : CronusRun env start stop l c) :
    (seasonLines l).Pairwise fun a b => a.1 ≤ b.1 := by
  unfold seasonLines
  rw [List.pairwise_map]
  refine List.Pairwise.imp_of_mem ?_ ((cronus_seasons_ordered hf hs hstop h).filter _)
  intro a b _ hb hab
  obtain ⟨str, e⟩ := isSeasonShow_iff.mp (List.mem_filter.mp hb).2
  exact hab .season str e (by decide)

/-- A line: the winter solstice of 2000, with a clock that shows Universal Time. -/
example : ∃ t str, SeasonLine utEnv 2000 "winter" t (str ++ " Winter Solstice") := by
  obtain ⟨t, ht⟩ := SeasonTime.exists (y := 2000) (by norm_num) (s := "winter") (by decide)
  have hl : ∃ str, ltToStr utEnv.fl (dtToUt utEnv.fl (utEnv.rd t)) (zoneStr (some "UT")) "second" = .ok str := by
    unfold ltToStr
    exact ⟨_, rfl⟩
  obtain ⟨str, hl⟩ := hl
  refine ⟨t, str, ht, _, _, str, rfl, hl, ?_⟩
  rw [String.append_assoc]
  rfl

/-- A pass: the task for the winter of 2000 queues this line and the task for the next year. -/
example : ∃ c' p, cronusPass utEnv ⟨⟨[], []⟩, ⟨0, .equinox 2000 "winter"⟩⟩ = .ok (c', p) ∧
    (c'.cur :: c'.st.queue).Perm [⟨seasonJd 2000 "winter", .equinox 2001 "winter"⟩, seasonShow utEnv 2000 "winter"] := by
  obtain ⟨t, a, ht1, ht2⟩ := SeasonTime.exists (y := 2000) (by norm_num) (s := "winter") (by decide)
  have h0 : IsHeap Task.jd ([] : List Task) := fun i _ h => absurd h (by simp)
  have hr : ∃ st' p, runTask utEnv ⟨[], []⟩ ⟨0, .equinox 2000 "winter"⟩ = .ok (st', p) := by
    unfold runTask doEquinox
    simp only [ht1, ht2, bind, Except.bind]
    exact ⟨_, _, rfl⟩
  obtain ⟨st', p, hr⟩ := hr
  obtain ⟨new, n1, n2, -⟩ := runTask_season (start := 2000) FloatLike.id (by norm_num) h0
    (show Due 2000 ⟨0, .equinox 2000 "winter"⟩ from ⟨le_refl _, .inl rfl⟩) hr
  obtain ⟨-, rfl⟩ := n2 2000 "winter" rfl
  have hp : ∃ c', popTask st' = .ok c' := by
    unfold popTask
    rcases heappop_spec Task.jd st'.queue n1.1 with ⟨e, -⟩ | ⟨x, q, e, -⟩
    · have := n1.2
      rw [e] at this
      exact absurd this.symm.eq_nil (by simp)
    · rw [e]; exact ⟨_, rfl⟩
  obtain ⟨c', hp⟩ := hp
  refine ⟨c', p, ?_, ?_⟩
  · unfold cronusPass
    simp only [hr, hp, bind, Except.bind]
  · have := (popTask_ok n1.1 hp).1
    simpa using this.symm.trans n1.2

end
end Verif

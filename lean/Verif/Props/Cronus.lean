import Verif.Lemmas.Cronus

/-!
# C54, C55: the order of the events of `cronus`, and its end
-/

namespace Verif
open Real Spec

/-! ### Runs -/

theorem popTask_ok {st : CronusState} {c : CronusCfg} (hq : IsHeap Task.jd st.queue) (h : popTask st = .ok c) :
    st.queue.Perm (c.cur :: c.st.queue) ∧ (∀ x ∈ c.st.queue, c.cur.jd ≤ x.jd) ∧ IsHeap Task.jd c.st.queue ∧
      c.st.dict = st.dict := by
  unfold popTask at h
  rcases heappop_spec Task.jd st.queue hq with ⟨-, e⟩ | ⟨x, q, e, p, m, i⟩
  · rw [e] at h; cases h
  · rw [e] at h
    cases h
    exact ⟨p, m, i, rfl⟩

theorem cronusPass_ok {env : CronusEnv} {c c' : CronusCfg} {p : List String} (h : cronusPass env c = .ok (c', p)) :
    ∃ st, runTask env c.st c.cur = .ok (st, p) ∧ popTask st = .ok c' := by
  unfold cronusPass at h
  simp only [bind, Except.bind] at h
  split at h
  · cases h
  rename_i r he
  obtain ⟨st, p'⟩ := r
  simp only at h
  split at h
  · cases h
  rename_i c'' he'
  cases h
  exact ⟨st, he, he'⟩

/-- The queue in a run. -/
structure CronusInv (start : ℤ) (c : CronusCfg) : Prop where
  heap : IsHeap Task.jd c.st.queue
  least : ∀ x ∈ c.st.queue, c.cur.jd ≤ x.jd
  due : ∀ x ∈ c.cur :: c.st.queue, Due start x
  dated : ∀ x ∈ c.cur :: c.st.queue, Dated x

theorem CronusInv.pass {env : CronusEnv} (hf : FloatLike env.fl) {start : ℤ} (hs : -1000 ≤ start)
    (hs2 : start < 2 ^ 31) {c c' : CronusCfg} {p : List String} (i : CronusInv start c) (ht : c.cur.jd < 2 ^ 40)
    (h : cronusPass env c = .ok (c', p)) :
    CronusInv start c' ∧ ∃ new, (c'.cur :: c'.st.queue).Perm (new ++ c.st.queue) ∧ ∀ x ∈ new, Above c.cur.jd x := by
  obtain ⟨st, h1, h2⟩ := cronusPass_ok h
  obtain ⟨new, n1, n2, -⟩ := runTask_new hf hs hs2 i.heap (i.due _ List.mem_cons_self) ht h1
  obtain ⟨p1, p2, p3, -⟩ := popTask_ok n1.1 h2
  have q := p1.symm.trans n1.2
  refine ⟨⟨p3, p2, fun x hx => ?_, fun x hx => ?_⟩, new, q, fun x hx => (n2 x hx).2.1⟩
  · rcases List.mem_append.mp (q.mem_iff.mp hx) with hx | hx
    · exact (n2 x hx).1
    · exact i.due _ (List.mem_cons_of_mem _ hx)
  · rcases List.mem_append.mp (q.mem_iff.mp hx) with hx | hx
    · exact (n2 x hx).2.2
    · exact i.dated _ (List.mem_cons_of_mem _ hx)

/-- Everything done from a configuration on is above what all tasks of the configuration are above. -/
theorem steps_above {env : CronusEnv} (hf : FloatLike env.fl) {start : ℤ} (hs : -1000 ≤ start)
    (hs2 : start < 2 ^ 31) {stop : ℝ} (hstop : stop ≤ 2 ^ 40) {c c' : CronusCfg} {l : List (Task × List String)}
    (h : CronusSteps env stop c l c') : CronusInv start c → ∀ B, (∀ x ∈ c.cur :: c.st.queue, Above B x) →
      (∀ x ∈ l, Above B x.1) ∧ (l.Pairwise fun a b => Above a.1.jd b.1) ∧ (∀ x ∈ l, x.1.jd < stop) ∧
      (∀ x ∈ l, Dated x.1) ∧ CronusInv start c' := by
  induction h with
  | refl c => intro i B hB; exact ⟨by simp, .nil, by simp, by simp, i⟩
  | @step c c1 c2 l p hlt hp hsteps ih =>
    intro i B hB
    obtain ⟨i1, new, q, hn⟩ := i.pass hf hs hs2 (by linarith) hp
    have key : ∀ B', (∀ x ∈ c.st.queue, Above B' x) → B' ≤ c.cur.jd → ∀ x ∈ c1.cur :: c1.st.queue, Above B' x := by
      intro B' h1 h2 x hx
      rcases List.mem_append.mp (q.mem_iff.mp hx) with hx | hx
      · exact (hn x hx).mono h2
      · exact h1 x hx
    obtain ⟨-, r2, r3, r4, r5⟩ := ih i1 c.cur.jd (key _ (fun x hx => above_of_le (i.least x hx)) (le_refl _))
    have r0 := (ih i1 c.cur.jd (key _ (fun x hx => above_of_le (i.least x hx)) (le_refl _))).1
    -- a display may be below `B`, but then it pushes nothing
    have rB : ∀ x ∈ l, Above B x.1 := by
      refine (ih i1 B ?_).1
      by_cases hd : B ≤ c.cur.jd
      · exact key B (fun x hx => hB x (List.mem_cons_of_mem _ hx)) hd
      · have hcur := hB c.cur List.mem_cons_self
        have hdisp : ∃ src str, c.cur.job = .display src str := by
          unfold Above at hcur
          split at hcur
          · rename_i e; exact ⟨_, _, e⟩
          · exact absurd hcur hd
        obtain ⟨st, h1, h2⟩ := cronusPass_ok hp
        obtain ⟨new', m1, -, m3⟩ := runTask_new hf hs hs2 i.heap (i.due _ List.mem_cons_self) (by linarith) h1
        rw [m3 hdisp] at m1
        obtain ⟨p1, -⟩ := popTask_ok m1.1 h2
        intro x hx
        exact hB x (List.mem_cons_of_mem _ ((p1.symm.trans m1.2).mem_iff.mp hx))
    refine ⟨?_, List.pairwise_cons.mpr ⟨r0, r2⟩, ?_, ?_, r5⟩
    · intro x hx
      rcases List.mem_cons.mp hx with rfl | hx
      · exact hB _ List.mem_cons_self
      · exact rB x hx
    · intro x hx
      rcases List.mem_cons.mp hx with rfl | hx
      · exact hlt
      · exact r3 x hx
    · intro x hx
      rcases List.mem_cons.mp hx with rfl | hx
      · exact i.dated _ List.mem_cons_self
      · exact r4 x hx

/-! ### The start -/

/-- The first tasks: Easter and the four seasons. -/
theorem firstTasks_spec (start : ℤ) : IsHeap Task.jd (firstTasks start) ∧
    (firstTasks start).Perm ([⟨0, .equinox start "winter"⟩, ⟨0, .equinox start "autumn"⟩, ⟨0, .equinox start "summer"⟩,
      ⟨0, .equinox start "spring"⟩, ⟨0, .easter start⟩] : List Task) := by
  have h0 : IsHeap Task.jd ([] : List Task) := fun i _ h => absurd h (by simp)
  have := (((((Adds.refl h0).push 0 (.easter start)).push 0 (.equinox start "spring")).push 0
    (.equinox start "summer")).push 0 (.equinox start "autumn")).push 0 (.equinox start "winter")
  refine ⟨this.1, ?_⟩
  have h2 := this.2
  rw [List.append_nil] at h2
  exact h2

theorem initRST_ok {env : CronusEnv} (hf : FloatLike env.fl) {q : List Task} {start : ℤ} (hs : -2 ^ 31 ≤ start)
    {st : CronusState} (hq : IsHeap Task.jd q) (h : initRST env q start = .ok st) :
    start < 2 ^ 31 ∧ Adds q st.queue [⟨0, .rst (cj start 1 1)⟩] := by
  unfold initRST at h
  simp only [bind, Except.bind] at h
  split at h
  · cases h
  rename_i jd he
  have y2 := calToJdScalar_year hf he
  rw [calToJdScalar_ok hf hs y2 ⟨by norm_num, by norm_num, by norm_num, by simp [monthLen]⟩] at he
  cases he
  split at h
  · cases h
  split at h
  · cases h
  split at h
  · cases h
  split at h
  · cases h
  cases h
  exact ⟨y2, (Adds.refl hq).push _ _⟩

theorem cronusInit_ok {env : CronusEnv} (hf : FloatLike env.fl) {start stop : ℤ} (hs : -2 ^ 31 ≤ start) {s : ℝ}
    {st : CronusState} (h : cronusInit env start (some stop) = .ok (s, st)) :
    start < 2 ^ 31 ∧ s = stop ∧ IsHeap Task.jd st.queue ∧ st.queue.Perm
      ([⟨0, .rst (cj start 1 1)⟩, ⟨0, .equinox start "winter"⟩, ⟨0, .equinox start "autumn"⟩,
        ⟨0, .equinox start "summer"⟩, ⟨0, .equinox start "spring"⟩, ⟨0, .easter start⟩] : List Task) := by
  unfold cronusInit at h
  simp only [bind, Except.bind] at h
  split at h
  · cases h
  split at h
  · cases h
  rename_i st' he
  cases h
  obtain ⟨f1, f2⟩ := firstTasks_spec start
  obtain ⟨y2, a⟩ := initRST_ok hf hs f1 he
  exact ⟨y2, rfl, a.1, a.2.trans (f2.cons _)⟩

theorem cronusInit_inv {env : CronusEnv} (hf : FloatLike env.fl) {start stop : ℤ} (hs : -1000 ≤ start) {s : ℝ}
    {st : CronusState} {c : CronusCfg} (h : cronusInit env start (some stop) = .ok (s, st)) (hp : popTask st = .ok c) :
    start < 2 ^ 31 ∧ s = stop ∧ CronusInv start c ∧ ∀ x ∈ c.cur :: c.st.queue, x.jd = 0 := by
  obtain ⟨y2, e, i, p⟩ := cronusInit_ok hf (by omega) h
  obtain ⟨p1, p2, p3, -⟩ := popTask_ok i hp
  have q := p1.symm.trans p
  have key : ∀ x ∈ c.cur :: c.st.queue, Due start x ∧ Dated x ∧ x.jd = 0 := by
    intro x hx
    have hx := q.mem_iff.mp hx
    simp only [List.mem_cons, List.not_mem_nil, or_false] at hx
    rcases hx with rfl | rfl | rfl | rfl | rfl | rfl
    · exact ⟨⟨cj_half _ _ _, le_refl _, .inl ⟨rfl, rfl⟩⟩, (fun _ _ e => by cases e), rfl⟩
    all_goals exact ⟨⟨le_refl _, .inl rfl⟩, (fun _ _ e => by cases e), rfl⟩
  exact ⟨y2, e, ⟨p3, p2, fun x hx => (key x hx).1, fun x hx => (key x hx).2.1⟩, fun x hx => (key x hx).2.2⟩

/-! ### C54 -/

/-- C54: in every run the tasks are done in the order of their times, except for the events found by
`doRiseSetTransit`, which may come up to 3.1 days late.  This holds for every conversion to local time. -/
theorem cronus_ordered {env : CronusEnv} (hf : FloatLike env.fl) {start stop : ℤ} (hs : -1000 ≤ start)
    (hstop : stop ≤ 2 ^ 40) {l : List (Task × List String)} {c : CronusCfg} (h : CronusRun env start stop l c) :
    l.Pairwise fun a b => a.1.jd ≤ b.1.jd ∨
      (∃ str, b.1.job = .display .rst str) ∧ a.1.jd ≤ b.1.jd + 3.1 := by
  cases h with
  | intro h1 h2 h3 =>
    obtain ⟨y2, rfl, i, z⟩ := cronusInit_inv hf hs h1 h2
    have := (steps_above hf hs y2 (by exact_mod_cast hstop) h3 i 0 (fun x hx => above_of_le (z x hx).ge)).2.1
    refine this.imp ?_
    intro a b hab
    unfold Above at hab
    split at hab
    · rename_i e; exact .inr ⟨⟨_, e⟩, hab⟩
    · exact .inl hab

/-- C54: in particular Easter and the seasons are displayed after everything earlier, and in order. -/
theorem cronus_seasons_ordered {env : CronusEnv} (hf : FloatLike env.fl) {start stop : ℤ} (hs : -1000 ≤ start)
    (hstop : stop ≤ 2 ^ 40) {l : List (Task × List String)} {c : CronusCfg} (h : CronusRun env start stop l c) :
    l.Pairwise fun a b => ∀ src str, b.1.job = .display src str → src ≠ .rst → a.1.jd ≤ b.1.jd := by
  refine (cronus_ordered hf hs hstop h).imp ?_
  rintro a b (hab | ⟨⟨str, e⟩, -⟩) src str' e' hsrc
  · exact hab
  · rw [e] at e'; cases e'; exact absurd rfl hsrc

/-- C54: except on the first day, the transits of a day are looked for when the day is over; their time is then
already past (apart from the first second of the next day, and the difference of the time scales). -/
theorem cronus_transits_late {env : CronusEnv} (hf : FloatLike env.fl) {start stop : ℤ} (hs : -1000 ≤ start)
    (hstop : stop ≤ 2 ^ 40) {l : List (Task × List String)} {c : CronusCfg} (h : CronusRun env start stop l c)
    {a : ℚ} (hj : c.cur.job = .rst a) (h0 : c.cur.jd ≠ 0) {u : ℝ × ℝ × ℝ} {t : ℝ}
    (ht : transit a u (1 / 86400) env.gLongitude = .ok (some t)) :
    c.cur.jd = a + 1 ∧ t < c.cur.jd + 1 / 86400 - deltaTDays a := by
  cases h with
  | intro h1 h2 h3 =>
    obtain ⟨y2, rfl, i, z⟩ := cronusInit_inv hf hs h1 h2
    have i' := (steps_above hf hs y2 (by exact_mod_cast hstop) h3 i 0 (fun x hx => above_of_le (z x hx).ge)).2.2.2.2
    have hd := i'.due _ List.mem_cons_self
    unfold Due at hd
    rw [hj] at hd
    have e : c.cur.jd = a + 1 := by
      rcases hd.2.2 with ⟨e, -⟩ | e
      · exact absurd e h0
      · rw [e]; push_cast; rfl
    have := (transit_bounds ht).2
    exact ⟨e, by rw [e]; linarith⟩

/-! ### C55 -/

/-- C55: without a stop year the program raises before anything is displayed. -/
theorem cronus_no_stop (env : CronusEnv) (start : ℤ) : ∃ msg, cronusInit env start none = .error (.TypeError msg) :=
  ⟨_, rfl⟩

/-- C55: only events before Julian Day `stop` are displayed, so that the argument is not a year: below
1,300,000 nothing at all is displayed, for every start year from -1000 on. -/
theorem cronus_stop_is_jd {env : CronusEnv} (hf : FloatLike env.fl) {start stop : ℤ} (hs : -1000 ≤ start)
    {l : List (Task × List String)} {c : CronusCfg} (h : CronusRun env start stop l c) :
    (∀ x ∈ l, x.1.jd < stop) ∧ (stop ≤ 1300000 → ∀ x ∈ l, ∀ src str, x.1.job ≠ .display src str) := by
  have key : ∀ {s : ℝ} {c c' : CronusCfg} {l : List (Task × List String)}, CronusSteps env s c l c' →
      ∀ x ∈ l, x.1.jd < s := by
    intro s c c' l h
    induction h with
    | refl => simp
    | step hlt _ _ ih =>
      intro x hx
      rcases List.mem_cons.mp hx with rfl | hx
      · exact hlt
      · exact ih x hx
  cases h with
  | intro h1 h2 h3 =>
    obtain ⟨y2, rfl, i, z⟩ := cronusInit_inv hf hs h1 h2
    refine ⟨key h3, fun hstop x hx src str e => ?_⟩
    have s2 : (stop : ℝ) ≤ 1300000 := by exact_mod_cast hstop
    have := (steps_above hf hs y2 (s2.trans (by norm_num)) h3 i 0
      (fun x hx => above_of_le (z x hx).ge)).2.2.2.1 x hx src str e
    have := key h3 x hx
    linarith

/-- The conversion to local time of the code. -/
def IsActual (env : CronusEnv) : Prop :=
  ∃ (tmIsdst : Stamp → ℤ) (z : Zones), env.utToLt = utToLt env.fl tmIsdst z

theorem doEquinox_actual {env : CronusEnv} (ha : IsActual env) (q : List Task) (y : ℤ) (season : String) :
    ∀ q', doEquinox env q y season ≠ .ok q' := by
  obtain ⟨tz, z, e⟩ := ha
  intro q' h
  unfold doEquinox at h
  simp only [bind, Except.bind] at h
  split at h
  · cases h
  split at h
  · cases h
  rename_i jd _
  obtain ⟨err, he⟩ := ut_to_lt_never_returns env.fl tz z (dtToUt env.fl (env.rd jd))
  rw [e, he] at h
  cases h

/-- A task which makes the program of the code raise. -/
def Fatal (t : Task) : Prop := t.jd ≤ 0 ∧ ∃ y season, t.job = .equinox y season

/-- The other tasks at the start. -/
noncomputable def early (t : Task) : Bool := by
  classical exact decide (t.jd ≤ 0 ∧ ∀ y season, t.job ≠ .equinox y season)

theorem early_iff (t : Task) : early t = true ↔ t.jd ≤ 0 ∧ ∀ y season, t.job ≠ .equinox y season := by
  unfold early; simp

/-- New tasks of the first Easter and rise-set-transit tasks are not early. -/
theorem runTask_early {env : CronusEnv} (hf : FloatLike env.fl) (ha : IsActual env) {start : ℤ} (hs : -1000 ≤ start)
    (hs2 : start < 2 ^ 31) {st st' : CronusState} {t : Task} {p : List String} (hq : IsHeap Task.jd st.queue)
    (hd : Due start t) (ht : t.jd ≤ 0) (h : runTask env st t = .ok (st', p)) :
    (∀ y season, t.job ≠ .equinox y season) ∧ ∃ new, Adds st.queue st'.queue new ∧ ∀ x ∈ new, early x = false := by
  have pos : ∀ x : Task, 0 < x.jd → early x = false := by
    intro x hx
    rw [Bool.eq_false_iff]
    intro h
    rw [early_iff] at h
    linarith [h.1]
  unfold runTask at h
  unfold Due at hd
  split at h
  · rename_i hj
    cases h
    exact ⟨by rw [hj]; simp, [], Adds.refl hq, by simp⟩
  · rename_i y hj
    rw [hj] at hd
    simp only [bind, Except.bind] at h
    split at h
    · cases h
    rename_i q' he
    cases h
    obtain ⟨s, -, ha⟩ := doEaster_ok hf (by omega) hq he
    refine ⟨by rw [hj]; simp, _, ha, ?_⟩
    obtain ⟨b1, -⟩ := easterJd_bounds y
    have b3 := cj_march (show -1000 ≤ y + 1 by omega)
    have b4 := cj_march (show -1000 ≤ y by omega)
    have b1' : ((cj y 3 1 : ℚ) : ℝ) + 21 ≤ (easterJd y : ℚ) := by exact_mod_cast b1
    have b3' : (1355000 : ℝ) ≤ (cj (y + 1) 3 1 : ℚ) := by exact_mod_cast b3
    have b4' : (1355000 : ℝ) ≤ (cj y 3 1 : ℚ) := by exact_mod_cast b4
    intro x hx
    simp only [List.mem_cons, List.not_mem_nil, or_false] at hx
    rcases hx with rfl | rfl
    · exact pos _ (by show (0 : ℝ) < ((cj (y + 1) 3 1 : ℚ) : ℝ); linarith)
    · exact pos _ (by show (0 : ℝ) < ((easterJd y : ℚ) : ℝ); linarith)
  · rename_i y season hj
    simp only [bind, Except.bind] at h
    split at h
    · cases h
    rename_i q' he
    exact absurd he (doEquinox_actual ha _ _ _ _)
  · rename_i a hj
    rw [hj] at hd
    obtain ⟨⟨n, rfl⟩, ha, hd⟩ := hd
    obtain ⟨c1, c2⟩ := cj_january hs hs2
    have e : (n : ℚ) - 1 / 2 = cj start 1 1 := by
      rcases hd with ⟨-, e⟩ | e
      · exact e
      · exfalso
        have : (((n : ℚ) - 1 / 2 + 1 : ℚ) : ℝ) ≤ ((0 : ℚ) : ℝ) := by rw [← e]; push_cast; exact ht
        have := Rat.cast_le.mp this
        linarith
    have nb : |n + 2| ≤ 2 ^ 50 := by
      have l : (0 : ℚ) ≤ n := by linarith
      have l' : 0 ≤ n := by exact_mod_cast l
      have u : (n : ℚ) ≤ ((2 ^ 40 + 1 : ℤ) : ℚ) := by push_cast; linarith
      have u' : n ≤ 2 ^ 40 + 1 := by exact_mod_cast u
      rw [abs_of_nonneg (by omega)]; omega
    have f2 : env.fl ((n : ℚ) - 1 / 2 + 2) = (n : ℚ) - 1 / 2 + 2 := by
      have := fl_half hf nb
      rw [show ((n : ℚ) - 1 / 2 + 2) = ((n + 2 : ℤ) : ℚ) - 1 / 2 by push_cast; ring, this]
    obtain ⟨new, n1, n2⟩ := doRst_ok hq h
    rw [f2] at n1
    refine ⟨by rw [hj]; simp, _, n1, ?_⟩
    have hr : (1355000 : ℝ) ≤ (((n : ℚ) - 1 / 2 : ℚ) : ℝ) := by
      have : (1355000 : ℚ) ≤ (n : ℚ) - 1 / 2 := by linarith
      exact_mod_cast this
    intro x hx
    rcases List.mem_cons.mp hx with rfl | hx
    · refine pos _ ?_
      show (0 : ℝ) < (((n : ℚ) - 1 / 2 + 2 : ℚ) : ℝ)
      push_cast at hr ⊢
      linarith
    · obtain ⟨o, -, td, s, rfl, htr⟩ := n2 x hx
      obtain ⟨l, -⟩ := transit_bounds htr
      refine pos _ ?_
      show (0 : ℝ) < td
      norm_num at l hr ⊢
      linarith

/-- While a fatal task is queued, every pass does one of the early tasks. -/
theorem pass_early {env : CronusEnv} (hf : FloatLike env.fl) (ha : IsActual env) {start : ℤ} (hs : -1000 ≤ start)
    (hs2 : start < 2 ^ 31) {c c' : CronusCfg} {p : List String} (i : CronusInv start c)
    (hm : ∃ x ∈ c.cur :: c.st.queue, Fatal x) (h : cronusPass env c = .ok (c', p)) :
    CronusInv start c' ∧ (∃ x ∈ c'.cur :: c'.st.queue, Fatal x) ∧ c.cur.jd ≤ 0 ∧
      (c'.cur :: c'.st.queue).countP early + 1 = (c.cur :: c.st.queue).countP early := by
  obtain ⟨x, hx, hfx⟩ := hm
  have h0 : c.cur.jd ≤ 0 := by
    rcases List.mem_cons.mp hx with rfl | hx
    · exact hfx.1
    · exact (i.least x hx).trans hfx.1
  obtain ⟨i', -⟩ := i.pass hf hs hs2 (by linarith) h
  obtain ⟨st, h1, h2⟩ := cronusPass_ok h
  obtain ⟨ne, new, n1, n2⟩ := runTask_early hf ha hs hs2 i.heap (i.due _ List.mem_cons_self) h0 h1
  obtain ⟨p1, -⟩ := popTask_ok n1.1 h2
  have q := p1.symm.trans n1.2
  refine ⟨i', ⟨x, q.mem_iff.mpr (List.mem_append_right _ ?_), hfx⟩, h0, ?_⟩
  · rcases List.mem_cons.mp hx with rfl | hx
    · obtain ⟨-, y, s, e⟩ := hfx
      exact absurd e (ne y s)
    · exact hx
  · rw [q.countP_eq, List.countP_append, List.countP_eq_zero.mpr (fun x hx => by rw [n2 x hx]; simp),
      List.countP_cons_of_pos ((early_iff _).mpr ⟨h0, ne⟩), zero_add]

/-- C55, a defect: in the program of the code the conversion to local time raises, and the first tasks which
use it come before every event.  After at most two tasks (which display nothing) the program raises, whatever the
arguments. -/
theorem cronus_displays_nothing {env : CronusEnv} (hf : FloatLike env.fl) (ha : IsActual env) {start stop : ℤ}
    (hs : -1000 ≤ start) {l : List (Task × List String)} {c : CronusCfg} (h : CronusRun env start stop l c) :
    l.length ≤ 2 ∧ (∀ x ∈ l, ∀ src str, x.1.job ≠ .display src str) ∧ c.cur.jd ≤ 0 := by
  have steps : ∀ {s : ℝ} {c c' : CronusCfg} {l : List (Task × List String)}, start < 2 ^ 31 →
      CronusSteps env s c l c' → CronusInv start c → (∃ x ∈ c.cur :: c.st.queue, Fatal x) →
      l.length + (c'.cur :: c'.st.queue).countP early = (c.cur :: c.st.queue).countP early ∧
      (∀ x ∈ l, ∀ src str, x.1.job ≠ .display src str) ∧ CronusInv start c' ∧
      ∃ x ∈ c'.cur :: c'.st.queue, Fatal x := by
    intro s c c' l y2 h
    induction h with
    | refl => intro i hm; exact ⟨by simp, by simp, i, hm⟩
    | @step c c1 c2 l p hlt hp _ ih =>
      intro i hm
      obtain ⟨i', hm', h0, hc⟩ := pass_early hf ha hs y2 i hm hp
      obtain ⟨r1, r2, r3⟩ := ih i' hm'
      refine ⟨by simp only [List.length_cons]; omega, ?_, r3⟩
      intro x hx src str e
      rcases List.mem_cons.mp hx with rfl | hx
      · have := i.dated _ List.mem_cons_self _ _ e
        linarith
      · exact r2 x hx _ _ e
  cases h with
  | intro h1 h2 h3 =>
    obtain ⟨y2, rfl, i, z⟩ := cronusInit_inv hf hs h1 h2
    obtain ⟨-, -, ih, ip⟩ := cronusInit_ok hf (by omega) h1
    obtain ⟨p1, -⟩ := popTask_ok ih h2
    obtain ⟨r1, r2, r3, x, hx, fx⟩ := steps y2 h3 i ⟨⟨0, .equinox start "winter"⟩,
      (p1.symm.trans ip).mem_iff.mpr (by simp), le_refl _, _, _, rfl⟩
    rw [(p1.symm.trans ip).countP_eq] at r1
    have e5 : ∀ s, early ⟨0, .equinox start s⟩ = false := by
      intro s; rw [Bool.eq_false_iff]; intro h; exact ((early_iff _).mp h).2 _ _ rfl
    have e1 : early ⟨0, .easter start⟩ = true := (early_iff _).mpr ⟨le_refl _, by simp⟩
    have e2 : early ⟨0, .rst (cj start 1 1)⟩ = true := (early_iff _).mpr ⟨le_refl _, by simp⟩
    simp only [List.countP_cons, List.countP_nil, e5, e1, e2] at r1
    refine ⟨by simp at r1; omega, r2, ?_⟩
    rcases List.mem_cons.mp hx with rfl | hx
    · exact fx.1
    · exact (r3.least x hx).trans fx.1

/-- C55: hence every run of the program of the code ends with an exception. -/
theorem cronus_raises {env : CronusEnv} (hf : FloatLike env.fl) (ha : IsActual env) {start stop : ℤ}
    (hs : -1000 ≤ start) (hstop : 0 < stop) {s : ℝ} {st : CronusState} {c : CronusCfg}
    (h : cronusInit env start (some stop) = .ok (s, st)) (hp : popTask st = .ok c) :
    ∃ l c' e, CronusRun env start stop l c' ∧ cronusPass env c' = .error e := by
  by_contra hno
  simp only [not_exists, not_and] at hno
  have hs' := (cronusInit_inv hf hs h hp).2.1
  have app : ∀ {c c' c'' : CronusCfg} {l : List (Task × List String)} {p : List String}, CronusSteps env s c l c' →
      c'.cur.jd < s → cronusPass env c' = .ok (c'', p) → CronusSteps env s c (l ++ [(c'.cur, p)]) c'' := by
    intro c c' c'' l p h1 hlt hp
    induction h1 with
    | refl => exact .step hlt hp (.refl _)
    | step a b _ ih => exact .step a b (ih hlt hp)
  have key : ∀ n : ℕ, ∃ l c', l.length = n ∧ CronusSteps env s c l c' := by
    intro n
    induction n with
    | zero => exact ⟨[], c, rfl, .refl _⟩
    | succ n ih =>
      obtain ⟨l, c', e, hl⟩ := ih
      have run : CronusRun env start stop l c' := .intro h hp hl
      have h0 := (cronus_displays_nothing hf ha hs run).2.2
      cases hq : cronusPass env c' with
      | error e => exact absurd hq (hno l c' e run)
      | ok r =>
        refine ⟨_, r.1, ?_, app (p := r.2) hl ?_ hq⟩
        · rw [List.length_append, e]; rfl
        · rw [hs']
          have : (0 : ℝ) < stop := by exact_mod_cast hstop
          linarith
  obtain ⟨l, c', e, hl⟩ := key 3
  have := (cronus_displays_nothing hf ha hs (.intro h hp hl)).1
  omega

end Verif

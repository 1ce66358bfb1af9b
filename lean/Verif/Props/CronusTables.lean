import Verif.Props.Cronus

/-!
# C68: the coordinates used by `cronus`; C53: its lines on rising and setting
-/

namespace Verif
open Real Spec

noncomputable section

/-! ### Specification -/

/-- The bodies of the display. -/
def bodies : List String := skyPlanets ++ ["Moon", "Sun"]

/-- Apparent right ascension, declination and standard altitude of a body at a time. -/
def place (jd : ℝ) (n : String) : Except PyErr (ℝ × ℝ × ℝ) :=
  let (psi, eps) := nutationPair jd
  if n = "Moon" then .ok (moonPlace jd psi eps)
  else if n = "Sun" then (sunPlace jd psi eps).map fun p => (p.1, p.2, sunRstAltitude)
  else (geocentricPlanet jd n psi eps (1 / 86400)).map fun p => (p.1, p.2, standardRstAltitude)

/-- The same, as a value. -/
def placeVal (jd : ℝ) (n : String) : ℝ × ℝ × ℝ :=
  match place jd n with
  | .ok v => v
  | .error _ => (0, 0, 0)

/-- The entry of a body for the days `a - 1`, `a`, `a + 1`. -/
def entry (a : ℚ) (n : String) : RstObject :=
  let u := placeVal ((a - 1 : ℚ) : ℝ) n
  let v := placeVal ((a : ℚ) : ℝ) n
  let w := placeVal ((a + 1 : ℚ) : ℝ) n
  ⟨n, (u.1, v.1, w.1), (u.2.1, v.2.1, w.2.1), (u.2.2, v.2.2, w.2.2)⟩

/-- The whole table. -/
def IsTable (dict : List (String × RstObject)) (a : ℚ) : Prop :=
  dict = bodies.map (fun n => (n, entry a n)) ∧
    ∀ n ∈ bodies, (∃ v, place ((a - 1 : ℚ) : ℝ) n = .ok v) ∧ (∃ v, place ((a : ℚ) : ℝ) n = .ok v) ∧
      ∃ v, place ((a + 1 : ℚ) : ℝ) n = .ok v

/-! ### Updates -/

/-- A new day for one object. -/
def shiftObj (o : RstObject) (v : ℝ × ℝ × ℝ) : RstObject :=
  ⟨o.name, shift3 o.ra v.1, shift3 o.dec v.2.1, shift3 o.h0 v.2.2⟩

theorem updateObject_map {names : List String} {G : String → RstObject} {p : String} {v : ℝ × ℝ × ℝ}
    {d : List (String × RstObject)}
    (h : updateObject (names.map fun n => (n, G n)) p v.1 v.2.1 v.2.2 = .ok d) :
    d = names.map fun n => (n, if n = p then shiftObj (G n) v else G n) := by
  unfold updateObject at h
  split at h
  · cases h
  · cases h
    rw [List.map_map]
    refine List.map_congr_left fun n _ => ?_
    simp only [Function.comp]
    split_ifs <;> rfl

theorem place_planet {jd : ℝ} {p : String} (h1 : p ≠ "Moon") (h2 : p ≠ "Sun") {ra dec : ℝ}
    (h : geocentricPlanet jd p (nutationPair jd).1 (nutationPair jd).2 (1 / 86400) = .ok (ra, dec)) :
    place jd p = .ok (ra, dec, standardRstAltitude) := by
  unfold place
  simp only [if_neg h1, if_neg h2]
  rw [h]; rfl

theorem placeVal_of {jd : ℝ} {n : String} {v : ℝ × ℝ × ℝ} (h : place jd n = .ok v) : placeVal jd n = v := by
  unfold placeVal; rw [h]

theorem updatePlanets_map {jd : ℝ} {names : List String} : ∀ (ps : List String), ps.Nodup →
    (∀ p ∈ ps, p ≠ "Moon" ∧ p ≠ "Sun") → ∀ {G : String → RstObject} {d : List (String × RstObject)},
    updatePlanets jd (nutationPair jd).1 (nutationPair jd).2 ps (names.map fun n => (n, G n)) = .ok d →
    (∀ p ∈ ps, ∃ v, place jd p = .ok v) ∧
      d = names.map fun n => (n, if n ∈ ps then shiftObj (G n) (placeVal jd n) else G n) := by
  intro ps
  induction ps with
  | nil => intro _ _ G d h; cases h; simp
  | cons p ps ih =>
    intro hn hm G d h
    unfold updatePlanets at h
    simp only [bind, Except.bind] at h
    split at h
    · cases h
    rename_i r he
    obtain ⟨ra, dec⟩ := r
    simp only at h
    split at h
    · cases h
    rename_i d1 he1
    have hp := place_planet (hm p List.mem_cons_self).1 (hm p List.mem_cons_self).2 he
    have e1 := updateObject_map (v := (ra, dec, standardRstAltitude)) he1
    rw [e1] at h
    obtain ⟨i1, i2⟩ := ih (List.nodup_cons.mp hn).2 (fun q hq => hm q (List.mem_cons_of_mem _ hq)) h
    refine ⟨fun q hq => ?_, ?_⟩
    · rcases List.mem_cons.mp hq with rfl | hq
      · exact ⟨_, hp⟩
      · exact i1 q hq
    · rw [i2]
      refine List.map_congr_left fun n _ => ?_
      have hnot := (List.nodup_cons.mp hn).1
      by_cases e : n = p
      · subst e
        rw [if_neg hnot, if_pos rfl, if_pos List.mem_cons_self, placeVal_of hp]
      · rw [if_neg e]
        simp only [List.mem_cons, e, false_or]

theorem shiftObj_entry (a : ℚ) (n : String) : shiftObj (entry a n) (placeVal ((a + 2 : ℚ) : ℝ) n) = entry (a + 1) n := by
  unfold entry shiftObj shift3
  have e1 : a + 1 - 1 = a := by ring
  have e2 : a + 1 + 1 = a + 2 := by ring
  simp only [e1, e2]

theorem sunPlace_place {jd : ℝ} {ra dec : ℝ} (h : sunPlace jd (nutationPair jd).1 (nutationPair jd).2 = .ok (ra, dec)) :
    place jd "Sun" = .ok (ra, dec, sunRstAltitude) := by
  unfold place
  simp only [if_neg (by decide : ("Sun" : String) ≠ "Moon"), if_true]
  rw [h]; rfl

theorem moonPlace_place (jd : ℝ) :
    place jd "Moon" = .ok (moonPlace jd (nutationPair jd).1 (nutationPair jd).2) := by
  unfold place
  simp only [if_true]

theorem skyPlanets_nodup : skyPlanets.Nodup := by decide
theorem skyPlanets_ne : ∀ p ∈ skyPlanets, p ≠ "Moon" ∧ p ≠ "Sun" := by decide
theorem mem_bodies {n : String} : n ∈ bodies ↔ n ∈ skyPlanets ∨ n = "Moon" ∨ n = "Sun" := by
  unfold bodies; simp

/-- A pass of `doRiseSetTransit` moves the table by a day. -/
theorem doRst_table {env : CronusEnv} {st st' : CronusState} {a : ℚ} {p : List String}
    (hfl : env.fl (a + 2) = a + 2) (ht : IsTable st.dict a) (h : doRiseSetTransit env st a = .ok (st', p)) :
    IsTable st'.dict (a + 1) := by
  unfold doRiseSetTransit at h
  simp only [bind, Except.bind] at h
  split at h
  · cases h
  simp only [hfl] at h
  split at h
  · cases h
  rename_i d1 h1
  split at h
  · cases h
  rename_i d2 h2
  split at h
  · cases h
  rename_i r h3
  obtain ⟨ra, dec⟩ := r
  simp only at h
  split at h
  · cases h
  rename_i d3 h4
  cases h
  rw [ht.1] at h1
  obtain ⟨p1, e1⟩ := updatePlanets_map _ skyPlanets_nodup skyPlanets_ne h1
  rw [e1] at h2
  have e2 := updateObject_map h2
  rw [e2] at h4
  have e3 := updateObject_map (v := (ra, dec, sunRstAltitude)) h4
  have pm := moonPlace_place ((a + 2 : ℚ) : ℝ)
  have ps := sunPlace_place h3
  refine ⟨?_, fun n hn => ?_⟩
  · show d3 = _
    rw [e3]
    refine List.map_congr_left fun n hn => ?_
    rw [← shiftObj_entry]
    rcases mem_bodies.mp hn with hn | rfl | rfl
    · rw [if_neg (skyPlanets_ne n hn).2, if_neg (skyPlanets_ne n hn).1, if_pos hn]
    · rw [if_neg (by decide), if_pos rfl, if_neg (by decide), placeVal_of pm]
    · rw [if_pos rfl, if_neg (by decide), if_neg (by decide), placeVal_of ps]
  · obtain ⟨-, b, c⟩ := ht.2 n hn
    have e1 : a + 1 - 1 = a := by ring
    have e2 : a + 1 + 1 = a + 2 := by ring
    rw [e1, e2]
    refine ⟨b, c, ?_⟩
    rcases mem_bodies.mp hn with hn | rfl | rfl
    · exact p1 n hn
    · exact ⟨_, pm⟩
    · exact ⟨_, ps⟩

theorem initPlanets_map {env : CronusEnv} {a : ℚ} (f0 : env.fl (a + -1) = a - 1) (f1 : env.fl (a + 0) = a)
    (f2 : env.fl (a + 1) = a + 1) : ∀ (ps : List String), (∀ p ∈ ps, p ≠ "Moon" ∧ p ≠ "Sun") →
    ∀ {dict d : List (String × RstObject)}, initPlanets env a ps dict = .ok d →
    d = dict ++ ps.map (fun n => (n, entry a n)) ∧ ∀ n ∈ ps, (∃ v, place ((a - 1 : ℚ) : ℝ) n = .ok v) ∧
      (∃ v, place ((a : ℚ) : ℝ) n = .ok v) ∧ ∃ v, place ((a + 1 : ℚ) : ℝ) n = .ok v := by
  intro ps
  induction ps with
  | nil => intro _ dict d h; cases h; simp
  | cons p ps ih =>
    intro hm dict d h
    unfold initPlanets at h
    simp only [bind, Except.bind, f0, f1, f2] at h
    split at h
    · cases h
    rename_i r0 h0
    obtain ⟨r0, d0⟩ := r0
    simp only at h
    split at h
    · cases h
    rename_i r1 h1
    obtain ⟨r1, d1⟩ := r1
    simp only at h
    split at h
    · cases h
    rename_i r2 h2
    obtain ⟨r2, d2⟩ := r2
    simp only at h
    obtain ⟨m1, m2⟩ := hm p List.mem_cons_self
    have p0 := place_planet m1 m2 h0
    have p1 := place_planet m1 m2 h1
    have p2 := place_planet m1 m2 h2
    obtain ⟨i1, i2⟩ := ih (fun q hq => hm q (List.mem_cons_of_mem _ hq)) h
    refine ⟨?_, fun n hn => ?_⟩
    · rw [i1, List.append_assoc]
      congr 1
      simp only [List.map_cons, List.singleton_append]
      congr 1
      unfold entry
      rw [placeVal_of p0, placeVal_of p1, placeVal_of p2]
    · rcases List.mem_cons.mp hn with rfl | hn
      · exact ⟨⟨_, p0⟩, ⟨_, p1⟩, ⟨_, p2⟩⟩
      · exact i2 n hn

theorem initRST_table {env : CronusEnv} (hf : FloatLike env.fl) {q : List Task} {start : ℤ} (hs : -1000 ≤ start)
    {st : CronusState} (h : initRST env q start = .ok st) : IsTable st.dict (cj start 1 1) := by
  unfold initRST at h
  simp only [bind, Except.bind] at h
  split at h
  · cases h
  rename_i jd he
  have y2 := calToJdScalar_year hf he
  rw [calToJdScalar_ok hf (by omega) y2 ⟨by norm_num, by norm_num, by norm_num, by simp [monthLen]⟩] at he
  cases he
  obtain ⟨c1, c2⟩ := cj_january hs y2
  obtain ⟨n, hn⟩ := cj_half start 1 1
  have nb : |n| + 2 ≤ 2 ^ 50 := by
    have l : (0 : ℚ) ≤ n := by linarith
    have l' : 0 ≤ n := by exact_mod_cast l
    have u : (n : ℚ) ≤ ((2 ^ 40 + 1 : ℤ) : ℚ) := by push_cast; linarith
    have u' : n ≤ 2 ^ 40 + 1 := by exact_mod_cast u
    rw [abs_of_nonneg l']; omega
  have f : ∀ k : ℤ, |k| ≤ 1 → env.fl (cj start 1 1 + k) = cj start 1 1 + k := by
    intro k hk
    have := fl_half hf (n := n + k) ((abs_add_le _ _).trans (by omega))
    rw [hn, show ((n : ℚ) - 1 / 2 + k) = ((n + k : ℤ) : ℚ) - 1 / 2 by push_cast; ring, this]
  have f0 : env.fl (cj start 1 1 + -1) = cj start 1 1 - 1 := by
    have := f (-1) (by norm_num); push_cast at this; rw [this]; ring
  have f1 : env.fl (cj start 1 1 + 0) = cj start 1 1 := by
    have := f 0 (by norm_num); push_cast at this; rw [this]; ring
  have f2 : env.fl (cj start 1 1 + 1) = cj start 1 1 + 1 := by
    have := f 1 (by norm_num); push_cast at this; rw [this]
  generalize cj start 1 1 = a at *
  split at h
  · cases h
  rename_i d1 h1
  simp only [f0, f1, f2] at h
  split at h
  · cases h
  rename_i r0 h0
  obtain ⟨r0, d0⟩ := r0
  simp only at h
  split at h
  · cases h
  rename_i r1 h1'
  obtain ⟨r1, d1'⟩ := r1
  simp only at h
  split at h
  · cases h
  rename_i r2 h2
  obtain ⟨r2, d2⟩ := r2
  simp only at h
  cases h
  obtain ⟨i1, i2⟩ := initPlanets_map f0 f1 f2 _ skyPlanets_ne h1
  have s0 := sunPlace_place h0
  have s1 := sunPlace_place h1'
  have s2 := sunPlace_place h2
  have m0 := moonPlace_place ((a - 1 : ℚ) : ℝ)
  have m1 := moonPlace_place ((a : ℚ) : ℝ)
  have m2 := moonPlace_place ((a + 1 : ℚ) : ℝ)
  refine ⟨?_, fun n hn => ?_⟩
  · simp only [i1, List.nil_append]
    unfold bodies
    rw [List.map_append, List.append_assoc]
    congr 1
    simp only [List.map_cons, List.map_nil, List.singleton_append]
    unfold entry
    rw [placeVal_of s0, placeVal_of s1, placeVal_of s2, placeVal_of m0, placeVal_of m1, placeVal_of m2]
  · rcases mem_bodies.mp hn with hn | rfl | rfl
    · exact i2 n hn
    · exact ⟨⟨_, m0⟩, ⟨_, m1⟩, ⟨_, m2⟩⟩
    · exact ⟨⟨_, s0⟩, ⟨_, s1⟩, ⟨_, s2⟩⟩

/-! ### The runs -/

def Job.isRst : Job → Bool
  | .rst _ => true
  | _ => false

/-- The tasks which find the events of a day. -/
def rstPart (M : List Task) : List Task := M.filter fun t => t.job.isRst

/-- The day waiting, and its table. -/
def RstState (start : ℤ) (n : ℕ) (c : CronusCfg) : Prop :=
  ∃ J, (rstPart (c.cur :: c.st.queue)).Perm [⟨J, .rst (cj start 1 1 + n)⟩] ∧ IsTable c.st.dict (cj start 1 1 + n)

theorem runTask_rst {env : CronusEnv} (hf : FloatLike env.fl) {start : ℤ} (hs : -1000 ≤ start)
    {st st' : CronusState} {t : Task} {p : List String} (hq : IsHeap Task.jd st.queue) (hd : Due start t)
    (h : runTask env st t = .ok (st', p)) (hn : ∀ a, t.job ≠ .rst a) :
    st'.dict = st.dict ∧ ∃ new, Adds st.queue st'.queue new ∧ rstPart new = [] := by
  unfold runTask at h
  unfold Due at hd
  split at h
  · cases h
    exact ⟨rfl, [], Adds.refl hq, rfl⟩
  · rename_i y hj
    rw [hj] at hd
    simp only [bind, Except.bind] at h
    split at h
    · cases h
    rename_i q' he
    cases h
    obtain ⟨s, h1, ha⟩ := doEaster_ok hf (by omega) hq he
    exact ⟨rfl, _, ha, rfl⟩
  · simp only [bind, Except.bind] at h
    split at h
    · cases h
    rename_i q' he
    cases h
    obtain ⟨a, jd, lt, zone, s, title, h1, h2, -, -, -, ha⟩ := doEquinox_ok hq he
    exact ⟨rfl, _, ha, rfl⟩
  · rename_i a hj
    exact absurd hj (hn a)

theorem rst_pass {env : CronusEnv} (hf : FloatLike env.fl) {start : ℤ} (hs : -1000 ≤ start) (hs2 : start < 2 ^ 31)
    {c c' : CronusCfg} {p : List String} (i : CronusInv start c) {n : ℕ} (he : RstState start n c)
    (ht : c.cur.jd < 2 ^ 40) (h : cronusPass env c = .ok (c', p)) :
    (∀ a, c.cur.job = .rst a → a = cj start 1 1 + n ∧ RstState start (n + 1) c') ∧
    ((∀ a, c.cur.job ≠ .rst a) → RstState start n c') := by
  obtain ⟨st, h1, h2⟩ := cronusPass_ok h
  obtain ⟨J, hJ, hT⟩ := he
  constructor
  · intro a hj
    have hd := i.due _ List.mem_cons_self
    unfold Due at hd
    rw [hj] at hd
    obtain ⟨⟨k, rfl⟩, ha, hd⟩ := hd
    obtain ⟨c1, c2⟩ := cj_january hs hs2
    have an : (k : ℚ) - 1 / 2 ≤ 2 ^ 40 := by
      rcases hd with ⟨-, e⟩ | e
      · rw [e]; exact c2
      · have : (((k : ℚ) - 1 / 2 + 1 : ℚ) : ℝ) < ((2 ^ 40 : ℚ) : ℝ) := by rw [← e]; push_cast; exact ht
        have := Rat.cast_lt.mp this
        linarith
    have nb : |k| + 2 ≤ 2 ^ 50 := by
      have l : (0 : ℚ) ≤ k := by linarith
      have l' : 0 ≤ k := by exact_mod_cast l
      have u : (k : ℚ) ≤ ((2 ^ 40 + 1 : ℤ) : ℚ) := by push_cast; linarith
      have u' : k ≤ 2 ^ 40 + 1 := by exact_mod_cast u
      rw [abs_of_nonneg l']; omega
    have f2 : env.fl ((k : ℚ) - 1 / 2 + 2) = (k : ℚ) - 1 / 2 + 2 := by
      have := fl_half hf (n := k + 2) ((abs_add_le _ _).trans (by simpa using nb))
      rw [show ((k : ℚ) - 1 / 2 + 2) = ((k + 2 : ℤ) : ℚ) - 1 / 2 by push_cast; ring, this]
    have f1 : env.fl ((k : ℚ) - 1 / 2 + 1) = (k : ℚ) - 1 / 2 + 1 := by
      have := fl_half hf (n := k + 1) ((abs_add_le _ _).trans (by simp; omega))
      rw [show ((k : ℚ) - 1 / 2 + 1) = ((k + 1 : ℤ) : ℚ) - 1 / 2 by push_cast; ring, this]
    generalize (k : ℚ) - 1 / 2 = a at *
    have hc : rstPart (c.cur :: c.st.queue) = c.cur :: rstPart c.st.queue :=
      List.filter_cons_of_pos (by rw [hj]; rfl)
    rw [hc] at hJ
    have hm : c.cur ∈ [(⟨J, .rst (cj start 1 1 + n)⟩ : Task)] := hJ.mem_iff.mp List.mem_cons_self
    rw [List.mem_singleton] at hm
    have ea : a = cj start 1 1 + n := by rw [hm] at hj; cases hj; rfl
    rw [hm] at hJ
    have hnil : rstPart c.st.queue = [] := List.perm_nil.mp ((List.perm_cons _).mp hJ)
    subst ea
    unfold runTask at h1
    rw [hj] at h1
    simp only at h1
    obtain ⟨new, n1, n2⟩ := doRst_ok i.heap h1
    obtain ⟨p1, -, -, p4⟩ := popTask_ok n1.1 h2
    have q := (p1.symm.trans n1.2).filter fun t => t.job.isRst
    refine ⟨rfl, ((env.fl (cj start 1 1 + n + 2) : ℚ) : ℝ), ?_, ?_⟩
    · have e : rstPart ((⟨((env.fl (cj start 1 1 + n + 2) : ℚ) : ℝ), .rst (env.fl (cj start 1 1 + n + 1))⟩ :: new) ++
          c.st.queue) = [⟨((env.fl (cj start 1 1 + n + 2) : ℚ) : ℝ), .rst (env.fl (cj start 1 1 + n + 1))⟩] := by
        unfold rstPart at hnil ⊢
        rw [List.filter_append, hnil, List.append_nil, List.filter_cons_of_pos rfl]
        congr 1
        rw [List.filter_eq_nil_iff]
        intro x hx
        obtain ⟨o, -, t, s, rfl, -⟩ := n2 x hx
        simp [Job.isRst]
      unfold rstPart at e
      rw [e] at q
      rw [show cj start 1 1 + ((n + 1 : ℕ) : ℚ) = cj start 1 1 + n + 1 by push_cast; ring, ← f1]
      exact q
    · rw [p4, show cj start 1 1 + ((n + 1 : ℕ) : ℚ) = cj start 1 1 + n + 1 by push_cast; ring]
      exact doRst_table f2 hT h1
  · intro hn
    obtain ⟨e, new, n1, n2⟩ := runTask_rst hf hs i.heap (i.due _ List.mem_cons_self) h1 hn
    obtain ⟨p1, -, -, p4⟩ := popTask_ok n1.1 h2
    have q := (p1.symm.trans n1.2).filter fun t => t.job.isRst
    rw [List.filter_append] at q
    unfold rstPart at n2 hJ
    rw [n2, List.nil_append] at q
    rw [List.filter_cons_of_neg (by cases hj : c.cur.job <;> simp [Job.isRst]; exact absurd hj (hn _))] at hJ
    exact ⟨J, q.trans hJ, by rw [p4, e]; exact hT⟩

/-- The days whose events a trace has found. -/
def rstDays (l : List (Task × List String)) : List ℚ :=
  l.filterMap fun x => match x.1.job with
    | .rst a => some a
    | _ => none

theorem rst_steps {env : CronusEnv} (hf : FloatLike env.fl) {start : ℤ} (hs : -1000 ≤ start)
    (hs2 : start < 2 ^ 31) {stop : ℝ} (hstop : stop ≤ 2 ^ 40) {c c' : CronusCfg} {l : List (Task × List String)}
    (h : CronusSteps env stop c l c') : CronusInv start c → ∀ n, RstState start n c →
      ∃ m : ℕ, rstDays l = (List.range m).map (fun k : ℕ => cj start 1 1 + n + k) ∧ RstState start (n + m) c' := by
  induction h with
  | refl => intro i n hn; exact ⟨0, rfl, hn⟩
  | @step c c1 c2 l p hlt hp _ ih =>
    intro i n hn
    obtain ⟨i', -⟩ := i.pass hf hs hs2 (by linarith) hp
    obtain ⟨a, b⟩ := rst_pass hf hs hs2 i hn (by linarith) hp
    by_cases hj : ∃ d, c.cur.job = .rst d
    · obtain ⟨d, hj⟩ := hj
      obtain ⟨a1, a2⟩ := a d hj
      obtain ⟨m, m1, m2⟩ := ih i' _ a2
      refine ⟨m + 1, ?_, by rwa [show n + (m + 1) = n + 1 + m by omega]⟩
      rw [List.range_succ_eq_map, List.map_cons, List.map_map]
      unfold rstDays at m1 ⊢
      rw [List.filterMap_cons_some (b := d) (by simp only [hj]), m1]
      congr 1
      · rw [a1]; simp
      · refine List.map_congr_left fun k _ => ?_
        simp only [Function.comp]
        push_cast
        ring
    · simp only [not_exists] at hj
      obtain ⟨m, m1, m2⟩ := ih i' _ (b hj)
      refine ⟨m, ?_, m2⟩
      unfold rstDays at m1 ⊢
      rw [List.filterMap_cons_none, m1]
      cases h' : c.cur.job <;> simp only
      exact absurd h' (hj _)

/-- C68: the events are found day by day from 1 January of the start year on, no day twice, and whenever a day comes
up, the table holds the apparent places of all nine bodies on the day before, on that day and on the day after. -/
theorem cronus_tables {env : CronusEnv} (hf : FloatLike env.fl) {start stop : ℤ} (hs : -1000 ≤ start)
    (hstop : stop ≤ 2 ^ 40) {l : List (Task × List String)} {c : CronusCfg} (h : CronusRun env start stop l c) :
    ∃ n : ℕ, rstDays l = (List.range n).map (fun k : ℕ => cj start 1 1 + k) ∧
      ∀ a, c.cur.job = .rst a → a = cj start 1 1 + n ∧ IsTable c.st.dict a := by
  cases h with
  | @intro _ st0 _ _ _ h1 h2 h3 =>
    obtain ⟨y2, rfl, i, z⟩ := cronusInit_inv hf hs h1 h2
    obtain ⟨-, -, ih, ip⟩ := cronusInit_ok hf (by omega) h1
    obtain ⟨p1, -, -, p4⟩ := popTask_ok ih h2
    have q := (p1.symm.trans ip).filter fun t => t.job.isRst
    have ht : IsTable st0.dict (cj start 1 1) := by
      unfold cronusInit at h1
      simp only [bind, Except.bind] at h1
      split at h1
      · cases h1
      split at h1
      · cases h1
      rename_i st' he
      cases h1
      exact initRST_table hf hs he
    rw [← p4] at ht
    obtain ⟨n, n1, J, n2, n3⟩ := rst_steps hf hs y2 (by exact_mod_cast hstop) h3 i 0
      ⟨0, by simp only [Nat.cast_zero, add_zero]; exact q, by simpa using ht⟩
    simp only [Nat.cast_zero, add_zero, zero_add] at n1 n2 n3
    refine ⟨n, n1, fun a hj => ?_⟩
    unfold rstPart at n2
    rw [List.filter_cons_of_pos (by rw [hj]; rfl)] at n2
    have hm := n2.mem_iff.mp List.mem_cons_self
    rw [List.mem_singleton] at hm
    rw [hm] at hj
    cases hj
    exact ⟨rfl, n3⟩

/-! ### Rising and setting -/

theorem rstEvents_failures {env : CronusEnv} {jd : ℚ} : ∀ (os : List RstObject) {q q' : List Task} {p : List String},
    rstEvents env jd os q = .ok (q', p) → ∀ o ∈ os, ("****** RiseSetTransit failure: " ++ o.name ++ " rise") ∈ p ∧
      ("****** RiseSetTransit failure: " ++ o.name ++ " set") ∈ p := by
  intro os
  induction os with
  | nil => simp
  | cons o os ih =>
    intro q q' p h
    unfold rstEvents at h
    simp only [bind, Except.bind] at h
    split at h
    · cases h
    rename_i td1 h1
    rw [rise_returns_none h1] at h
    simp only [rstEvent] at h
    split at h
    · cases h
    rename_i td2 h2
    rw [settime_returns_none h2] at h
    simp only at h
    split at h
    · cases h
    rename_i td3 h3
    split at h
    · cases h
    rename_i r h4
    obtain ⟨q1, p3⟩ := r
    simp only at h
    split at h
    · cases h
    rename_i r h5
    obtain ⟨q2, p4⟩ := r
    cases h
    intro x hx
    rcases List.mem_cons.mp hx with rfl | hx
    · simp
    · have := ih h5 x hx
      simp [this.1, this.2]

/-- C53, a defect: each day `cronus` announces that rising and setting failed, for every body, and no rising or
setting is ever queued: the events queued are transits. -/
theorem cronus_no_risings {env : CronusEnv} {st st' : CronusState} {a : ℚ} {p : List String}
    (hq : IsHeap Task.jd st.queue) (hT : IsTable st.dict a) (h : doRiseSetTransit env st a = .ok (st', p)) :
    (∀ n ∈ bodies, ("****** RiseSetTransit failure: " ++ n ++ " rise") ∈ p ∧
      ("****** RiseSetTransit failure: " ++ n ++ " set") ∈ p) ∧
    ∃ new, st'.queue.Perm (⟨(env.fl (a + 2) : ℚ), .rst (env.fl (a + 1))⟩ :: new ++ st.queue) ∧
      ∀ x ∈ new, ∃ n ∈ bodies, transit a (entry a n).ra (1 / 86400) env.gLongitude = .ok (some x.jd) := by
  constructor
  · unfold doRiseSetTransit at h
    simp only [bind, Except.bind] at h
    split at h
    · cases h
    rename_i r he
    obtain ⟨q, pr⟩ := r
    simp only at h
    split at h
    · cases h
    split at h
    · cases h
    split at h
    · cases h
    split at h
    · cases h
    cases h
    intro n hn
    have := rstEvents_failures _ he (entry a n) (by
      rw [hT.1, List.map_map]; exact List.mem_map.mpr ⟨n, hn, rfl⟩)
    exact this
  · obtain ⟨new, n1, n2⟩ := doRst_ok hq h
    refine ⟨new, n1.2, fun x hx => ?_⟩
    obtain ⟨o, ho, t, s, rfl, ht⟩ := n2 x hx
    rw [hT.1, List.map_map] at ho
    obtain ⟨n, hn, rfl⟩ := List.mem_map.mp ho
    exact ⟨n, hn, ht⟩

end
end Verif

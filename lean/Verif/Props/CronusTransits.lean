import Verif.Props.CronusWitness
import Verif.Props.FloatTransit
import Verif.Props.MoonBound

/-!
# C105: the transit lines of `cronus`

Each day `cronus` queues at most one line for each body; a body without a line is reported as a failure, and then
`transit` has returned nothing.  The line of the Sun is queued for a time at which the Sun is in the meridian, in
universal time.  But the text is that of `dt_to_ut` of this time, as if it were dynamical time: the time displayed is early
by the difference of the two, more than a minute in 2000.
-/

namespace Verif
open Real

noncomputable section

/-! ### Specification -/

/-- The task `x` is the line of the body `n` with right ascensions `u` on the day `a`: its time is the one found by `transit`,
its text the local time for `ut`. -/
def TransitLine (env : CronusEnv) (a : ℚ) (n : String) (u : ℝ × ℝ × ℝ) (ut : ℚ) (x : Task) : Prop :=
  transit a u (1 / 86400) env.gLongitude = .ok (some x.jd) ∧ x.jd ≠ 0 ∧
    ∃ lt zone s, env.utToLt ut = .ok (lt, zone) ∧ ltToStr env.fl lt (zoneStr zone) "second" = .ok s ∧
      x.job = .display .rst (padRight 23 s ++ " " ++ n ++ " transits")

/-- At the universal time `w` the body `n` is in the meridian of a place of longitude `lon`, up to `e`. -/
def AtMeridian (n : String) (lon dT w e : ℝ) : Prop :=
  ∃ z s h, place (w + dT) n = .ok (z, s, h) ∧ TurnNear (gmstDegrees w * (π / 180) - lon) z e

/-- The conversion of a computed time to a float is right to a tenth of a millisecond. -/
def Reads (rd : ℝ → ℚ) : Prop := ∀ x : ℝ, |x| ≤ 4000000 → IsF64 (rd x) ∧ |(rd x : ℝ) - x| ≤ 1e-9

/-! ### What is queued -/

/-- The lines of a day, for any objects in the table. -/
theorem rstEvents_lines {env : CronusEnv} {jd : ℚ} {q0 : List Task} : ∀ (os : List RstObject) {q q' new : List Task}
    {p : List String}, Adds q0 q new → rstEvents env jd os q = .ok (q', p) →
    ∃ os' new', Adds q0 q' (new'.reverse ++ new) ∧ os'.Sublist os ∧
      List.Forall₂ (fun o x => TransitLine env jd o.name o.ra (dtToUt env.fl (env.rd x.jd)) x) os' new' ∧
      ∀ o ∈ os, o ∈ os' ∨ ("****** RiseSetTransit failure: " ++ o.name ++ " transit") ∈ p ∧
        (transit jd o.ra (1 / 86400) env.gLongitude = .ok none ∨
          transit jd o.ra (1 / 86400) env.gLongitude = .ok (some 0)) := by
  intro os
  induction os with
  | nil => intro q q' new p hq h; cases h; exact ⟨[], [], hq, .refl _, .nil, by simp⟩
  | cons o os ih =>
    intro q q' new p hq h
    unfold rstEvents at h
    simp only [bind, Except.bind] at h
    cases h1 : rise jd o.ra o.dec o.h0.2.1 (1 / 1440) env.defLongitude env.defLatitude env.gLatitude with
    | error e => rw [h1] at h; cases h
    | ok td =>
    rw [h1, rise_returns_none h1] at h
    simp only [rstEvent_none] at h
    cases h2 : settime jd o.ra o.dec o.h0.2.1 (1 / 1440) env.defLongitude env.defLatitude env.gLatitude with
    | error e => rw [h2] at h; cases h
    | ok td =>
    rw [h2, settime_returns_none h2] at h
    simp only [rstEvent_none] at h
    cases h3 : transit jd o.ra (1 / 86400) env.gLongitude with
    | error e => rw [h3] at h; cases h
    | ok td =>
    rw [h3] at h
    simp only at h
    split at h
    · cases h
    rename_i r he
    obtain ⟨qa, pa⟩ := r
    simp only at h
    split at h
    · cases h
    rename_i r' he'
    obtain ⟨qb, pb⟩ := r'
    cases h
    have fail : ∀ (e : qa = q ∧ pa = ["****** RiseSetTransit failure: " ++ o.name ++ " transit"])
        (ht : td = none ∨ td = some 0), ∃ os' new', Adds q0 qb (new'.reverse ++ new) ∧ os'.Sublist (o :: os) ∧
      List.Forall₂ (fun o x => TransitLine env jd o.name o.ra (dtToUt env.fl (env.rd x.jd)) x) os' new' ∧
      ∀ o' ∈ o :: os, o' ∈ os' ∨ ("****** RiseSetTransit failure: " ++ o'.name ++ " transit") ∈
        ["****** RiseSetTransit failure: " ++ o.name ++ " rise"] ++
          ["****** RiseSetTransit failure: " ++ o.name ++ " set"] ++ pa ++ pb ∧
        (transit jd o'.ra (1 / 86400) env.gLongitude = .ok none ∨
          transit jd o'.ra (1 / 86400) env.gLongitude = .ok (some 0)) := by
      rintro ⟨rfl, rfl⟩ ht
      obtain ⟨os', new', n1, n2, n3, n4⟩ := ih hq he'
      refine ⟨os', new', n1, n2.cons _, n3, fun o' ho' => ?_⟩
      rcases List.mem_cons.mp ho' with rfl | ho'
      · right
        refine ⟨by simp, ?_⟩
        rw [h3]
        rcases ht with rfl | rfl <;> simp
      · rcases n4 o' ho' with k | ⟨k, k'⟩
        · exact .inl k
        · exact .inr ⟨List.mem_append_right _ k, k'⟩
    unfold rstEvent at he
    cases td with
    | none => cases he; exact fail ⟨rfl, rfl⟩ (.inl rfl)
    | some t =>
      simp only at he
      split_ifs at he with t0
      · cases he; exact fail ⟨rfl, rfl⟩ (.inr (by rw [t0]))
      · simp only [bind, Except.bind] at he
        cases h4 : env.utToLt (dtToUt env.fl (env.rd t)) with
        | error e => rw [h4] at he; cases he
        | ok r =>
        obtain ⟨lt, zone⟩ := r
        rw [h4] at he
        simp only at he
        cases h5 : ltToStr env.fl lt (zoneStr zone) "second" with
        | error e => rw [h5] at he; cases he
        | ok s =>
        rw [h5] at he
        cases he
        obtain ⟨os', new', n1, n2, n3, n4⟩ := ih (hq.push t (.display .rst (padRight 23 s ++ " " ++ o.name ++ " transits"))) he'
        refine ⟨o :: os', _ :: new', by simpa using n1, n2.cons_cons _,
          .cons ⟨h3, t0, lt, zone, s, h4, h5, rfl⟩ n3, fun o' ho' => ?_⟩
        rcases List.mem_cons.mp ho' with rfl | ho'
        · exact .inl List.mem_cons_self
        · rcases n4 o' ho' with k | ⟨k, k'⟩
          · exact .inl (List.mem_cons_of_mem _ k)
          · exact .inr ⟨List.mem_append_right _ k, k'⟩

/-- The lines queued in one pass of the loop, for any objects in the table. -/
theorem pass_transit_lines {env : CronusEnv} {c c' : CronusCfg} (hq : IsHeap Task.jd c.st.queue) {a : ℚ}
    (hj : c.cur.job = .rst a) {p : List String} (hp : cronusPass env c = .ok (c', p)) :
    ∃ os new, (c'.cur :: c'.st.queue).Perm (⟨(env.fl (a + 2) : ℚ), .rst (env.fl (a + 1))⟩ :: (new ++ c.st.queue)) ∧
      os.Sublist (c.st.dict.map Prod.snd) ∧
      List.Forall₂ (fun o x => TransitLine env a o.name o.ra (dtToUt env.fl (env.rd x.jd)) x) os new ∧
      ∀ o ∈ c.st.dict.map Prod.snd, o ∈ os ∨ ("****** RiseSetTransit failure: " ++ o.name ++ " transit") ∈ p ∧
        (transit a o.ra (1 / 86400) env.gLongitude = .ok none ∨
          transit a o.ra (1 / 86400) env.gLongitude = .ok (some 0)) := by
  obtain ⟨st, h1, h2⟩ := cronusPass_ok hp
  unfold runTask at h1
  rw [hj] at h1
  simp only at h1
  unfold doRiseSetTransit at h1
  simp only [bind, Except.bind] at h1
  split at h1
  · cases h1
  rename_i r he
  obtain ⟨q1, p1⟩ := r
  obtain ⟨os', new, n1, n2, n3, n4⟩ := rstEvents_lines _ (Adds.refl hq) he
  simp only at h1
  split at h1
  · cases h1
  split at h1
  · cases h1
  split at h1
  · cases h1
  split at h1
  · cases h1
  cases h1
  rw [List.append_nil] at n1
  have n5 := n1.push ((env.fl (a + 2) : ℚ) : ℝ) (.rst (env.fl (a + 1)))
  obtain ⟨p1', -, -, -⟩ := popTask_ok n5.1 h2
  refine ⟨os', new, (p1'.symm.trans n5.2).trans ?_, n2, n3, n4⟩
  rw [List.cons_append]
  exact ((List.reverse_perm new).append_right _).cons _

/-- C105: when a day comes up in a run, each body either gets one line, for the time found by `transit`, or is reported as
a failure because `transit` has found nothing; nothing else is queued but the next day. -/
theorem cronus_transit_lines {env : CronusEnv} (hf : FloatLike env.fl) {start stop : ℤ} (hs : -1000 ≤ start)
    (hstop : stop ≤ 2 ^ 40) {l : List (Task × List String)} {c c' : CronusCfg} (h : CronusRun env start stop l c)
    {a : ℚ} (hj : c.cur.job = .rst a) {p : List String} (hp : cronusPass env c = .ok (c', p)) :
    ∃ ns new, (c'.cur :: c'.st.queue).Perm (⟨(env.fl (a + 2) : ℚ), .rst (env.fl (a + 1))⟩ :: (new ++ c.st.queue)) ∧
      ns.Sublist bodies ∧
      List.Forall₂ (fun n x => TransitLine env a n (entry a n).ra (dtToUt env.fl (env.rd x.jd)) x) ns new ∧
      ∀ n ∈ bodies, n ∈ ns ∨ ("****** RiseSetTransit failure: " ++ n ++ " transit") ∈ p ∧
        (transit a (entry a n).ra (1 / 86400) env.gLongitude = .ok none ∨
          transit a (entry a n).ra (1 / 86400) env.gLongitude = .ok (some 0)) := by
  obtain ⟨n, -, hn⟩ := cronus_tables hf hs hstop h
  have hT := (hn a hj).2
  have hq : IsHeap Task.jd c.st.queue := by
    cases h with
    | intro h1 h2 h3 =>
      obtain ⟨y2, rfl, i, z⟩ := cronusInit_inv hf hs h1 h2
      exact (steps_above hf hs y2 (by exact_mod_cast hstop) h3 i 0
        (fun x hx => above_of_le (z x hx).ge)).2.2.2.2.heap
  obtain ⟨os', new, pm, n2, n3, n4⟩ := pass_transit_lines hq hj hp
  have eos : c.st.dict.map Prod.snd = bodies.map (entry a) := by
    rw [hT.1, List.map_map]; rfl
  rw [eos] at n2 n4
  obtain ⟨ns, s1, rfl⟩ := List.sublist_map_iff.mp n2
  refine ⟨ns, new, pm, s1, ?_, fun n hn => ?_⟩
  · rw [List.forall₂_map_left_iff] at n3
    exact n3
  · rcases n4 (entry a n) (List.mem_map.mpr ⟨n, hn, rfl⟩) with k | k
    · left
      obtain ⟨n', k1, k2⟩ := List.mem_map.mp k
      have : n' = n := congrArg RstObject.name k2
      rwa [this] at k1
    · exact .inr k

/-- The hypotheses of `pass_transit_lines` are met by the pass of `cronus_out_of_order`. -/
example : ∃ (c c' : CronusCfg) (p : List String), IsHeap Task.jd c.st.queue ∧ c.cur.job = .rst 2451544.5 ∧
    cronusPass utEnv c = .ok (c', p) := by
  obtain ⟨c, c', l, i, st, t, s, -, e⟩ := cronus_out_of_order
  cases st with
  | refl => simp at e
  | @step _ c1 _ l1 p1 _ h1 s1 =>
    obtain ⟨st1, r1, o1⟩ := cronusPass_ok h1
    simp only [List.map_cons, List.cons.injEq] at e
    have hh : IsHeap Task.jd st1.queue := by
      rw [e.1] at r1; unfold runTask at r1; cases r1; exact i.heap
    cases s1 with
    | refl => simp at e
    | @step _ c2 _ l2 p2 _ h2 s2 =>
      simp only [List.map_cons, List.cons.injEq] at e
      exact ⟨c1, c2, p2, (popTask_ok hh o1).2.2.1, by rw [e.2.1], h2⟩

theorem forall₂_mem {α β : Type} {R : α → β → Prop} {as : List α} {bs : List β} (h : List.Forall₂ R as bs) {x : α}
    (hx : x ∈ as) : ∃ y ∈ bs, R x y := by
  induction h with
  | nil => cases hx
  | @cons a b as bs hab _ ih =>
    rcases List.mem_cons.mp hx with rfl | hx
    · exact ⟨b, List.mem_cons_self, hab⟩
    · obtain ⟨y, hy, r⟩ := ih hx
      exact ⟨y, List.mem_cons_of_mem _ hy, r⟩

/-! ### What the lines say -/

/-- The table holds places of the Sun. -/
theorem table_sun {dict : List (String × RstObject)} {a : ℚ} (h : IsTable dict a) :
    SunTriple a (entry a "Sun").ra (entry a "Sun").dec := by
  have alt : ∀ {jd : ℝ} {v : ℝ × ℝ × ℝ}, place jd "Sun" = .ok v → place jd "Sun" = .ok (v.1, v.2.1, -0.0145438286569) := by
    intro jd v hv
    have hv' := hv
    unfold place at hv'
    simp only [if_neg (show ("Sun" : String) ≠ "Moon" by decide), if_true] at hv'
    cases hs : sunPlace jd (nutationPair jd).1 (nutationPair jd).2 with
    | error e => rw [hs] at hv'; cases hv'
    | ok r =>
      rw [hs] at hv'
      cases hv'
      exact hv
  obtain ⟨⟨u, hu⟩, ⟨v, hv⟩, ⟨w, hw⟩⟩ := h.2 "Sun" (mem_bodies.mpr (.inr (.inr rfl)))
  unfold SunTriple entry
  simp only
  rw [placeVal_of hu, placeVal_of hv, placeVal_of hw]
  push_cast at hu hw
  exact ⟨alt hu, alt hv, alt hw⟩

/-- The table holds places of the Moon. -/
theorem table_moon {dict : List (String × RstObject)} {a : ℚ} (h : IsTable dict a) :
    MoonTriple a (entry a "Moon").ra (entry a "Moon").dec := by
  obtain ⟨⟨u, hu⟩, ⟨v, hv⟩, ⟨w, hw⟩⟩ := h.2 "Moon" (mem_bodies.mpr (.inr (.inl rfl)))
  unfold MoonTriple entry
  simp only
  rw [placeVal_of hu, placeVal_of hv, placeVal_of hw]
  push_cast at hu hw
  exact ⟨⟨_, hu⟩, ⟨_, hv⟩, ⟨_, hw⟩⟩

/-- The time converted to local time for a transit at `t`. -/
theorem shown_early {fl : ℚ → ℚ} (hr : Rounding fl) {rd : ℝ → ℚ} (hd : Reads rd) {a : ℚ} {t : ℝ}
    (h0 : 2313120 ≤ a) (h1 : a ≤ 2456930) (ht : |t - a| ≤ 1.1) :
    |(dtToUt fl (rd t) : ℝ) - (t - deltaTDays a)| ≤ 0.015 / 86400 := by
  have h0' : (2313120 : ℝ) ≤ a := by exact_mod_cast h0
  have h1' : (a : ℝ) ≤ 2456930 := by exact_mod_cast h1
  have ht' := abs_le.mp ht
  norm_num at ht'
  obtain ⟨F, e1⟩ := hd t (by rw [abs_le]; constructor <;> linarith)
  set r := rd t with hrd
  have e1' := abs_le.mp e1
  norm_num at e1'
  have r0 : (2313118.5 : ℚ) ≤ r := by
    have : ((2313118.5 : ℚ) : ℝ) ≤ r := by push_cast; norm_num; linarith
    exact_mod_cast this
  have r1 : r ≤ (2456932.25 : ℚ) := by
    have : (r : ℝ) ≤ ((2456932.25 : ℚ) : ℝ) := by push_cast; norm_num; linarith
    exact_mod_cast this
  have e2 := deltaTDaysF_near hr F r0 r1
  have e3 : |deltaTDays r - deltaTDays a| ≤ 0.0138 / 86400 := by
    have q : |deltaTSeconds (fun x => x) r - deltaTSeconds (fun x => x) a| ≤ |r - a| / 80 := by
      rcases le_total a r with k | k
      · have := deltaT_lipschitz a r (by norm_num; linarith) k r1
        rwa [abs_of_nonneg (sub_nonneg.mpr k)]
      · have := deltaT_lipschitz r a r0 k (by norm_num; linarith)
        rw [abs_sub_comm, abs_sub_comm r, abs_of_nonneg (sub_nonneg.mpr k)]
        exact this
    have q' : |((deltaTSeconds (fun x => x) r : ℚ) : ℝ) - (deltaTSeconds (fun x => x) a : ℚ)| ≤ |(r : ℝ) - a| / 80 := by
      exact_mod_cast q
    have k : |(r : ℝ) - a| ≤ 1.101 := by rw [abs_le]; norm_num; constructor <;> linarith
    unfold deltaTDays
    rw [← sub_div, abs_div, abs_of_pos (by norm_num : (0 : ℝ) < 86400)]
    gcongr
    refine q'.trans ?_
    norm_num at k ⊢
    linarith
  have e4 := hr.floatLike.errR (r - deltaTDaysF fl r)
  have ed : dtToUt fl r = fl (r - deltaTDaysF fl r) := rfl
  rw [ed]
  have e5 : |deltaTDays r| ≤ 0.01 := by
    obtain ⟨b0, b1⟩ := deltaT_range r r0 r1
    have b0' : ((-10 : ℚ) : ℝ) ≤ (deltaTSeconds (fun x => x) r : ℚ) := by exact_mod_cast b0
    have b1' : ((deltaTSeconds (fun x => x) r : ℚ) : ℝ) ≤ (121 : ℚ) := by exact_mod_cast b1
    push_cast at b0' b1'
    unfold deltaTDays
    rw [abs_le]; norm_num; constructor <;> linarith
  rw [uuR, wwR] at e4
  push_cast at e4
  have e6 : |(r : ℝ) - deltaTDaysF fl r| ≤ 2500000 := by
    rw [abs_le] at e2 e5 ⊢
    norm_num at e2 e5
    constructor <;> linarith [e2.1, e2.2, e5.1, e5.2]
  rw [abs_le] at e2 e3 ⊢
  norm_num at e2 e3 e4 ⊢
  have e7 := abs_le.mp (e4.trans (show _ ≤ (1e-9 : ℝ) by norm_num at e6 ⊢; linarith))
  norm_num at e7
  constructor <;> linarith [e2.1, e2.2, e3.1, e3.2, e7.1, e7.2]

theorem deltaTDays_small {a : ℚ} (h0 : 2313120 ≤ a) (h1 : a ≤ 2456930) : |deltaTDays a| ≤ 0.01 := by
  obtain ⟨b0, b1⟩ := deltaT_range a (by norm_num; linarith) (by norm_num; linarith)
  have b0' : ((-10 : ℚ) : ℝ) ≤ (deltaTSeconds (fun x => x) a : ℚ) := by exact_mod_cast b0
  have b1' : ((deltaTSeconds (fun x => x) a : ℚ) : ℝ) ≤ (121 : ℚ) := by exact_mod_cast b1
  push_cast at b0' b1'
  unfold deltaTDays
  rw [abs_le]; norm_num; constructor <;> linarith

/-- C105, a defect: the Sun is in the meridian (to 2.1 seconds of arc) at a universal time within a tenth of a second of the
time for which its line is queued, but the text of the line is for a time earlier by the difference between dynamical and
universal time, which has been subtracted a second time. -/
theorem cronus_sun_line {env : CronusEnv} (hr : Rounding env.fl) (hd : Reads env.rd) (l0 : -π ≤ env.gLongitude)
    (l1 : env.gLongitude ≤ π) {dict : List (String × RstObject)} {a : ℚ} (h0 : 2313120 ≤ a) (h1 : a ≤ 2456930)
    (hT : IsTable dict a) {ut : ℚ} {x : Task} (hu : ut = dtToUt env.fl (env.rd x.jd))
    (hx : TransitLine env a "Sun" (entry a "Sun").ra ut x) (hn : |x.jd - a + deltaTDays a| ≤ 0.999) :
    ∃ w, AtMeridian "Sun" env.gLongitude (deltaTDays a) w (arcsec 2.1) ∧ |x.jd - w| ≤ 0.101 / 86400 ∧
      |ut - (w - deltaTDays a)| ≤ 0.12 / 86400 := by
  have h0' : (2313120 : ℝ) ≤ a := by exact_mod_cast h0
  have h1' : (a : ℝ) ≤ 2456930 := by exact_mod_cast h1
  have era : |(a : ℝ) - 2451545| ≤ 1100000 := by rw [abs_le]; constructor <;> linarith
  obtain ⟨w, z, s, b, e, k⟩ := sun_transit era (table_sun hT) l0 l1 (by norm_num) (by norm_num) hx.1 hn
  have dT := deltaTDays_small h0 h1
  have sh := shown_early hr hd h0 h1 (t := x.jd) (by
    rw [abs_le] at hn dT ⊢; norm_num at hn dT ⊢; constructor <;> linarith [hn.1, hn.2, dT.1, dT.2])
  rw [← hu] at sh
  have b' : |x.jd - w| ≤ 0.101 / 86400 := b.trans (by norm_num)
  refine ⟨w, ⟨z, s, _, e, k⟩, b', ?_⟩
  rw [abs_le] at sh b' ⊢
  norm_num at sh b' ⊢
  constructor <;> linarith [sh.1, sh.2, b'.1, b'.2]

/-- C105: the same for the Moon, which is in the meridian to 653 seconds of arc (C104). -/
theorem cronus_moon_line {env : CronusEnv} (hr : Rounding env.fl) (hd : Reads env.rd) (l0 : -π ≤ env.gLongitude)
    (l1 : env.gLongitude ≤ π) {dict : List (String × RstObject)} {a : ℚ} (h0 : 2313120 ≤ a) (h1 : a ≤ 2456930)
    (hT : IsTable dict a) {ut : ℚ} {x : Task} (hu : ut = dtToUt env.fl (env.rd x.jd))
    (hx : TransitLine env a "Moon" (entry a "Moon").ra ut x) (hn : |x.jd - a + deltaTDays a| ≤ 0.999) :
    ∃ w, AtMeridian "Moon" env.gLongitude (deltaTDays a) w (arcsec 653) ∧ |x.jd - w| ≤ 0.101 / 86400 ∧
      |ut - (w - deltaTDays a)| ≤ 0.12 / 86400 := by
  have h0' : (2313120 : ℝ) ≤ a := by exact_mod_cast h0
  have h1' : (a : ℝ) ≤ 2456930 := by exact_mod_cast h1
  have h9 : |centuries (a : ℝ)| ≤ 19.9 := by
    unfold centuries; rw [abs_le]; norm_num; constructor <;> linarith
  obtain ⟨w, z, s, h, b, e, k⟩ := moon_transit h9 (table_moon hT) l0 l1 (by norm_num) (by norm_num) hx.1 hn
  have dT := deltaTDays_small h0 h1
  have sh := shown_early hr hd h0 h1 (t := x.jd) (by
    rw [abs_le] at hn dT ⊢; norm_num at hn dT ⊢; constructor <;> linarith [hn.1, hn.2, dT.1, dT.2])
  rw [← hu] at sh
  have b' : |x.jd - w| ≤ 0.101 / 86400 := b.trans (by norm_num)
  refine ⟨w, ⟨z, s, _, e, k⟩, b', ?_⟩
  rw [abs_le] at sh b' ⊢
  norm_num at sh b' ⊢
  constructor <;> linarith [sh.1, sh.2, b'.1, b'.2]

/-- C105: if a day is done without an exception and the Sun is in the meridian that day (not in the first or last tenth),
its line is queued, for a time within 0.27 second of that. -/
theorem cronus_sun_transit_queued {env : CronusEnv} (hf : FloatLike env.fl) {start stop : ℤ} (hs : -1000 ≤ start)
    (hstop : stop ≤ 2 ^ 40) {l : List (Task × List String)} {c c' : CronusCfg} (h : CronusRun env start stop l c)
    {a : ℚ} (hj : c.cur.job = .rst a) {p : List String} (hp : cronusPass env c = .ok (c', p))
    (era : |(a : ℝ) - 2451545| ≤ 1100000) (l0 : -π ≤ env.gLongitude) (l1 : env.gLongitude ≤ π) {m : ℝ}
    (h0 : 0.11 ≤ m) (h1 : m ≤ 0.89) (hn : |m + deltaTDays a| ≤ 0.88)
    (hm : AtMeridian "Sun" env.gLongitude (deltaTDays a) (a + m) 0) :
    ∃ x ∈ c'.cur :: c'.st.queue, TransitLine env a "Sun" (entry a "Sun").ra (dtToUt env.fl (env.rd x.jd)) x ∧
      |x.jd - (a + m)| ≤ 0.27 / 86400 := by
  obtain ⟨ns, new, pm, sub, lines, all⟩ := cronus_transit_lines hf hs hstop h hj hp
  obtain ⟨n, -, hT⟩ := cronus_tables hf hs hstop h
  have tr := table_sun (hT a hj).2
  obtain ⟨z, s, h', e, k, hk⟩ := hm
  obtain ⟨u, ra, dec, hu, su, -, -, key⟩ := sun_day ((era_millennia era).trans (by norm_num)) tr
  have I : TransitInput a (entry a "Sun").ra u env.gLongitude :=
    ⟨era, hu, slow_mono su (by norm_num) (by norm_num), l0, l1⟩
  have eh : h' = -0.0145438286569 := by
    obtain ⟨⟨z', e', -⟩, -⟩ := key _ (hn.trans (by norm_num))
    rw [← add_assoc, e] at e'
    simp only [Except.ok.injEq, Prod.mk.injEq] at e'
    exact e'.2.2
  subst eh
  have sunIn : ("Sun" : String) ∈ bodies := mem_bodies.mpr (.inr (.inr rfl))
  have ok : ∃ o, transit a (entry a "Sun").ra (1 / 86400) env.gLongitude = .ok o := by
    rcases all _ sunIn with k | ⟨-, k | k⟩
    · obtain ⟨x, -, hx⟩ := forall₂_mem lines k
      exact ⟨_, hx.1⟩
    · exact ⟨_, k⟩
    · exact ⟨_, k⟩
  have hr : -(2 * π) ≤ (entry a "Sun").ra.2.1 + env.gLongitude - siderealTimeGreenwich a := by
    by_contra hc
    obtain ⟨o, ho⟩ := ok
    have := (transit_refused_iff (delta := 1 / 86400) I).mpr (not_le.mp hc)
    rw [ho] at this
    cases this
  obtain ⟨t, ht, hb⟩ := sun_transit_found (delta := 1 / 86400) era tr l0 l1 (by norm_num) hr h0 h1 hn e
    ⟨k, by have := abs_nonpos_iff.mp hk; linarith⟩
  have tpos : t ≠ 0 := by
    rw [abs_le] at hb era
    norm_num at hb era h0 h1
    have := hb.1
    intro h00
    rw [h00] at this
    linarith [era.1]
  rcases all _ sunIn with k | ⟨-, k | k⟩
  · obtain ⟨x, hx, hl⟩ := forall₂_mem lines k
    refine ⟨x, pm.mem_iff.mpr (List.mem_cons_of_mem _ (List.mem_append_left _ hx)), hl, ?_⟩
    have e1 := hl.1
    rw [ht] at e1
    cases e1
    exact hb.trans (by norm_num)
  · rw [ht] at k; cases k
  · rw [ht] at k; cases k; exact absurd rfl tpos

/-! ### 2000 January 1 -/

/-- Cutting a time after thirty binary digits. -/
theorem reads_floor : Reads fun x => (⌊x * 2 ^ 30⌋ : ℚ) / 2 ^ 30 := by
  intro x hx
  have h1 := Int.floor_le (x * 2 ^ 30)
  have h2 := Int.lt_floor_add_one (x * 2 ^ 30)
  rw [abs_le] at hx
  show IsF64 ((⌊x * 2 ^ 30⌋ : ℚ) / 2 ^ 30) ∧ |((((⌊x * 2 ^ 30⌋ : ℤ) : ℚ) / 2 ^ 30 : ℚ) : ℝ) - x| ≤ 1e-9
  generalize ⌊x * 2 ^ 30⌋ = n at *
  constructor
  · refine isF64_dyadic 30 (by norm_num) ?_
    have a : (n : ℝ) ≤ ((2 ^ 53 : ℤ) : ℝ) := by push_cast; norm_num at h1 h2 ⊢; linarith [hx.2]
    have b : ((-2 ^ 53 : ℤ) : ℝ) ≤ (n : ℝ) := by push_cast; norm_num at h1 h2 ⊢; linarith [hx.1]
    rw [abs_le]
    exact ⟨by exact_mod_cast b, by exact_mod_cast a⟩
  · push_cast
    rw [abs_le]
    norm_num at h1 h2 ⊢
    constructor <;> linarith

theorem table_2000 : IsTable (bodies.map fun n => (n, entry 2451544.5 n)) 2451544.5 := by
  refine ⟨rfl, fun n hn => ?_⟩
  have ok : ∀ jd : ℝ, |millennia jd| ≤ 5.9 → ∃ v, place jd n = .ok v := by
    intro jd h
    unfold place
    rcases mem_bodies.mp hn with hp | rfl | rfl
    · have := skyPlanets_ne n hp
      obtain ⟨r, hr⟩ := geocentric_ok hp h (nutationPair jd).1 (nutationPair jd).2
      simp only [if_neg this.1, if_neg this.2, hr]
      exact ⟨_, rfl⟩
    · exact ⟨_, rfl⟩
    · obtain ⟨r, hr⟩ := sunPlace_ok jd (nutationPair jd).1 (nutationPair jd).2
      simp only [if_neg (show ("Sun" : String) ≠ "Moon" by decide), if_true, hr]
      exact ⟨_, rfl⟩
  refine ⟨ok _ ?_, ok _ ?_, ok _ ?_⟩ <;> unfold millennia <;> push_cast <;> rw [abs_le] <;> norm_num

/-- C105: on 2000 January 1, with a repaired conversion to local time, there is a place where the line of the Sun shows a
time more than 63 seconds before the Sun is in the meridian. -/
theorem cronus_sun_line_2000 : ∃ (env : CronusEnv) (x : Task) (ut : ℚ) (w : ℝ), Rounding env.fl ∧ Reads env.rd ∧
    (∀ ut, env.utToLt ut = .ok (ut, some "UT")) ∧ IsTable (bodies.map fun n => (n, entry 2451544.5 n)) 2451544.5 ∧
    TransitLine env 2451544.5 "Sun" (entry 2451544.5 "Sun").ra ut x ∧ ut = dtToUt env.fl (env.rd x.jd) ∧
    AtMeridian "Sun" env.gLongitude (deltaTDays 2451544.5) w (arcsec 2.1) ∧ |x.jd - w| ≤ 0.101 / 86400 ∧
    ut < w - 63 / 86400 := by
  have hp := Real.pi_gt_d6
  have hst := sidereal_2000
  norm_num at hp hst
  have h := (era_millennia era_2000).trans (by norm_num : (3.02 : ℝ) ≤ 5.9)
  have hs := table_sun table_2000
  have dT := deltaT_2000
  have hn : |(0.5 : ℝ) + deltaTDays 2451544.5| ≤ 0.88 := by rw [dT, abs_le]; norm_num
  obtain ⟨u, ra, dec, hu, -, -, -, key⟩ := sun_day h hs
  obtain ⟨⟨z, e, -⟩, -⟩ := key _ (hn.trans (by norm_num))
  rw [← add_assoc] at e
  set g := gmstDegrees ((2451544.5 : ℚ) + 0.5) * (π / 180) - z with hg
  set lon := toIocMod Real.two_pi_pos (-π) g with hlon
  obtain ⟨l0, l1⟩ := toIocMod_mem_Ioc Real.two_pi_pos (-π) g
  rw [← hlon] at l0 l1
  have l1' : lon ≤ π := by linarith
  have cg : Congr (2 * π) (gmstDegrees ((2451544.5 : ℚ) + 0.5) * (π / 180) - lon) z := by
    refine ⟨toIocDiv Real.two_pi_pos (-π) g, ?_⟩
    have := toIocMod_add_toIocDiv_zsmul Real.two_pi_pos (-π) g
    rw [← hlon, zsmul_eq_mul] at this
    rw [hg] at this ⊢
    linear_combination -this
  obtain ⟨t, ht, hb⟩ := sun_transit_found (delta := 1 / 86400) era_2000 hs l0.le l1' (by norm_num)
    (by have := hu.2.1.1; push_cast; norm_num; linarith) (by norm_num) (by norm_num) hn e cg
  have tb : |t - 2451545| ≤ 0.00001 := by
    refine le_trans (le_of_eq ?_) (hb.trans (by norm_num))
    congr 1; push_cast; norm_num
  have tb' := abs_le.mp tb
  norm_num at tb'
  set env : CronusEnv := ⟨rne, fun x => (⌊x * 2 ^ 30⌋ : ℚ) / 2 ^ 30, fun ut => .ok (ut, some "UT"), .ok (), lon, 0, lon, 0⟩
    with henv
  set ut := dtToUt env.fl (env.rd t) with hut
  obtain ⟨s, hl⟩ : ∃ s, ltToStr env.fl ut (zoneStr (some "UT")) "second" = .ok s := by
    unfold ltToStr; exact ⟨_, rfl⟩
  set x : Task := ⟨t, .display .rst (padRight 23 s ++ " " ++ "Sun" ++ " transits")⟩ with hx
  have tl : TransitLine env 2451544.5 "Sun" (entry 2451544.5 "Sun").ra ut x :=
    ⟨ht, by show t ≠ 0; intro h0; rw [h0] at tb'; norm_num at tb', ut, some "UT", s, rfl, hl, rfl⟩
  obtain ⟨w, m, b1, b2⟩ := cronus_sun_line (env := env) rounding_rne reads_floor l0.le l1' (by norm_num) (by norm_num)
    table_2000 (x := x) hut tl (by
      show |t - _ + _| ≤ _
      rw [dT, abs_le]; push_cast; norm_num; constructor <;> linarith)
  refine ⟨env, x, ut, w, rounding_rne, reads_floor, fun _ => rfl, table_2000, tl, hut, m, b1, ?_⟩
  rw [dT, abs_le] at b2
  norm_num at b2 ⊢
  linarith [b2.2]

end
end Verif

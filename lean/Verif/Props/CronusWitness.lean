import Verif.Props.CronusTables
import Verif.Props.Geocentric
import Verif.Props.Transit

/-!
# Runs of `cronus` exist; C54: transits are displayed out of order
-/

namespace Verif
open Real Spec

noncomputable section

/-! ### Places exist -/

theorem geocentric_ok {p : String} (hp : p ∈ skyPlanets) {jd : ℝ} (h : |millennia jd| ≤ 5.9) (psi eps : ℝ) :
    ∃ r, geocentricPlanet jd p psi eps (1 / 86400) = .ok r := by
  have hk : p ∈ knownPlanets := by
    revert p; decide
  have hE : p ≠ "Earth" := by
    revert p; decide
  obtain ⟨c, hc⟩ := hasTables_of_known hk
  obtain ⟨x, l, b, ra, dec, -, -, -, e, -⟩ := geocentric_planet_accurate hk hE hc h psi eps (1 / 86400)
    (by norm_num) (by norm_num)
  exact ⟨_, e⟩

theorem sunPlace_ok (jd psi eps : ℝ) : ∃ r, sunPlace jd psi eps = .ok r := by
  unfold sunPlace
  rw [sun_dimension3_value]
  exact ⟨_, rfl⟩

theorem initPlanets_ok {env : CronusEnv} {a : ℚ}
    (h : ∀ d ∈ [(-1 : ℚ), 0, 1], |millennia ((env.fl (a + d) : ℚ) : ℝ)| ≤ 5.9) :
    ∀ (ps : List String), (∀ p ∈ ps, p ∈ skyPlanets) → ∀ dict, ∃ d, initPlanets env a ps dict = .ok d := by
  intro ps
  induction ps with
  | nil => intro _ dict; exact ⟨dict, rfl⟩
  | cons p ps ih =>
    intro hp dict
    have hp' := hp p List.mem_cons_self
    unfold initPlanets
    obtain ⟨⟨r0, d0⟩, e0⟩ := geocentric_ok hp' (h (-1) (by simp)) (nutationPair ((env.fl (a + -1) : ℚ) : ℝ)).1
      (nutationPair ((env.fl (a + -1) : ℚ) : ℝ)).2
    obtain ⟨⟨r1, d1⟩, e1⟩ := geocentric_ok hp' (h 0 (by simp)) (nutationPair ((env.fl (a + 0) : ℚ) : ℝ)).1
      (nutationPair ((env.fl (a + 0) : ℚ) : ℝ)).2
    obtain ⟨⟨r2, d2⟩, e2⟩ := geocentric_ok hp' (h 1 (by simp)) (nutationPair ((env.fl (a + 1) : ℚ) : ℝ)).1
      (nutationPair ((env.fl (a + 1) : ℚ) : ℝ)).2
    simp only [bind, Except.bind, e0, e1, e2]
    exact ih (fun q hq => hp q (List.mem_cons_of_mem _ hq)) _

/-- The preparation succeeds for the years from -1000 to 7000. -/
theorem cronusInit_total {env : CronusEnv} (hf : FloatLike env.fl) (hl : env.loadParams = .ok ()) {start : ℤ}
    (hs : -1000 ≤ start) (hs2 : start ≤ 7000) (stop : ℤ) :
    ∃ st c, cronusInit env start (some stop) = .ok ((stop : ℝ), st) ∧ popTask st = .ok c := by
  have c1 := (cj_january hs (by omega)).1
  have c2 : cj start 1 1 ≤ 4280000 := by
    obtain ⟨a, b⟩ := excess_range 1 (show -4711 ≤ start by omega)
    have d : jdn true start 1 1 ≤ 4279990 := by
      unfold jdn epoch
      rw [dayOfYear_1, daysToYear_true]
      simp only [if_true]
      omega
    have b' : (excess true start 1 : ℚ) ≤ 1 := by exact_mod_cast b
    have d2 : (jdn true start 1 1 : ℚ) ≤ 4279990 := by exact_mod_cast d
    unfold cj jd0
    linarith
  obtain ⟨n, hn⟩ := cj_half start 1 1
  have era : ∀ d ∈ [(-1 : ℚ), 0, 1], |millennia ((env.fl (cj start 1 1 + d) : ℚ) : ℝ)| ≤ 5.9 := by
    intro d hd
    have hk : ∃ k : ℤ, d = k ∧ |k| ≤ 1 := by
      simp only [List.mem_cons, List.not_mem_nil, or_false] at hd
      rcases hd with rfl | rfl | rfl
      · exact ⟨-1, by norm_num, by norm_num⟩
      · exact ⟨0, by norm_num, by norm_num⟩
      · exact ⟨1, by norm_num, by norm_num⟩
    obtain ⟨k, rfl, hk⟩ := hk
    have nb : |n| + 2 ≤ 2 ^ 50 := by
      have l : (0 : ℚ) ≤ n := by linarith
      have l' : 0 ≤ n := by exact_mod_cast l
      have u : (n : ℚ) ≤ ((4280001 : ℤ) : ℚ) := by push_cast; linarith
      have u' : n ≤ 4280001 := by exact_mod_cast u
      rw [abs_of_nonneg l']; omega
    have f : env.fl (cj start 1 1 + k) = cj start 1 1 + k := by
      have := fl_half hf (n := n + k) ((abs_add_le _ _).trans (by omega))
      rw [hn, show ((n : ℚ) - 1 / 2 + k) = ((n + k : ℤ) : ℚ) - 1 / 2 by push_cast; ring, this]
    rw [f]
    have kk := abs_le.mp hk
    have k1 : (-1 : ℝ) ≤ k := by exact_mod_cast kk.1
    have k2 : (k : ℝ) ≤ 1 := by exact_mod_cast kk.2
    have r1 : (1355000 : ℝ) ≤ (cj start 1 1 : ℚ) := by exact_mod_cast c1
    have r2 : ((cj start 1 1 : ℚ) : ℝ) ≤ 4280000 := by exact_mod_cast c2
    unfold millennia
    rw [abs_le]
    push_cast
    constructor
    · rw [le_div_iff₀ (by norm_num)]; norm_num; linarith
    · rw [div_le_iff₀ (by norm_num)]; norm_num; linarith
  have hi : ∃ st, initRST env (firstTasks start) start = .ok st := by
    unfold initRST
    rw [calToJdScalar_ok hf (by omega) (by omega) ⟨by norm_num, by norm_num, by norm_num, by simp [monthLen]⟩]
    obtain ⟨d, hd⟩ := initPlanets_ok era skyPlanets (fun p h => h) []
    obtain ⟨⟨s0, t0⟩, e0⟩ := sunPlace_ok ((env.fl (cj start 1 1 + -1) : ℚ) : ℝ)
      (nutationPair ((env.fl (cj start 1 1 + -1) : ℚ) : ℝ)).1 (nutationPair ((env.fl (cj start 1 1 + -1) : ℚ) : ℝ)).2
    obtain ⟨⟨s1, t1⟩, e1⟩ := sunPlace_ok ((env.fl (cj start 1 1 + 0) : ℚ) : ℝ)
      (nutationPair ((env.fl (cj start 1 1 + 0) : ℚ) : ℝ)).1 (nutationPair ((env.fl (cj start 1 1 + 0) : ℚ) : ℝ)).2
    obtain ⟨⟨s2, t2⟩, e2⟩ := sunPlace_ok ((env.fl (cj start 1 1 + 1) : ℚ) : ℝ)
      (nutationPair ((env.fl (cj start 1 1 + 1) : ℚ) : ℝ)).1 (nutationPair ((env.fl (cj start 1 1 + 1) : ℚ) : ℝ)).2
    simp only [bind, Except.bind, hd, e0, e1, e2]
    exact ⟨_, rfl⟩
  obtain ⟨st, hst⟩ := hi
  have e : cronusInit env start (some stop) = .ok ((stop : ℝ), st) := by
    unfold cronusInit
    simp only [bind, Except.bind, hl, hst]
  obtain ⟨-, -, i, p⟩ := cronusInit_ok hf (by omega) e
  rcases heappop_spec Task.jd st.queue i with ⟨e0, -⟩ | ⟨x, q, e', -, -, -⟩
  · rw [e0] at p
    exact absurd p.length_eq (by simp)
  · exact ⟨st, ⟨⟨q, st.dict⟩, x⟩, e, by unfold popTask; rw [e']⟩

/-- C55: from -1000 to 7000, every call of the program of the code ends with an exception, and no event is displayed
before it. -/
theorem cronus_always_raises {env : CronusEnv} (hf : FloatLike env.fl) (ha : IsActual env)
    (hl : env.loadParams = .ok ()) {start stop : ℤ} (hs : -1000 ≤ start) (hs2 : start ≤ 7000) (hstop : 0 < stop) :
    ∃ l c e, CronusRun env start stop l c ∧ c.cur.jd < stop ∧ cronusPass env c = .error e ∧
      ∀ x ∈ l, ∀ src str, x.1.job ≠ .display src str := by
  obtain ⟨st, c, h1, h2⟩ := cronusInit_total hf hl hs hs2 stop
  obtain ⟨l, c', e, h3, h4⟩ := cronus_raises hf ha hs hstop h1 h2
  obtain ⟨-, h5, h6⟩ := cronus_displays_nothing hf ha hs h3
  have : (0 : ℝ) < stop := by exact_mod_cast hstop
  exact ⟨l, c', e, h3, by linarith, h4, h5⟩

/-- The hypotheses of the theorems on runs are met: for a repaired conversion to local time and for the one of the code. -/
example : ∃ env : CronusEnv, FloatLike env.fl ∧ IsActual env ∧ ∃ c, CronusRun env 2000 2460000 [] c := by
  refine ⟨⟨fun x => x, fun _ => 0, utToLt (fun x => x) (fun _ => 0) ⟨"EST", 5 / 24, none, none⟩, .ok (), 0, 0, 0, 0⟩,
    FloatLike.id, ⟨fun _ => 0, ⟨"EST", 5 / 24, none, none⟩, rfl⟩, ?_⟩
  obtain ⟨st, c, h1, h2⟩ := cronusInit_total (env := ⟨fun x => x, fun _ => 0,
    utToLt (fun x => x) (fun _ => 0) ⟨"EST", 5 / 24, none, none⟩, .ok (), 0, 0, 0, 0⟩) FloatLike.id rfl
    (start := 2000) (by norm_num) (by norm_num) 2460000
  exact ⟨c, .intro h1 h2 (.refl _)⟩

/-! ### Out of order -/

/-- A star which stays below its standard altitude. -/
def starObj (n : String) : RstObject := ⟨n, (5, 5, 5), (1, 1, 1), (π / 2, π / 2, π / 2)⟩

theorem star_no_rising {mode : RsMode} {delta lon phi : ℝ} (n : String) :
    riseset 2451544.5 (starObj n).ra (starObj n).dec (starObj n).h0.2.1 delta mode lon 0 phi = .ok none := by
  have hc : 0 < cos (1 : ℝ) := Real.cos_one_pos
  refine riseset_never_rises (by simp) hc (le_refl _) ?_
  intro H
  unfold altitude
  show Real.arcsin _ < π / 2
  rw [Real.arcsin_lt_pi_div_two]
  have c1 : cos (1 : ℝ) < 1 := by
    have := Real.pi_gt_three
    exact (Real.cos_lt_cos_of_nonneg_of_le_pi (le_refl 0) (by linarith) (by norm_num)).trans_eq Real.cos_zero
  have h1 := Real.cos_le_one H
  show (toHorizon 0 (direction H 1)).z < 1
  simp only [toHorizon, direction, Real.sin_zero, Real.cos_zero]
  nlinarith

theorem star_transits : ∃ t : ℝ, 2451545 ≤ t ∧ t ≤ 2451545.3 ∧
    transit 2451544.5 (5, 5, 5) (1 / 86400) 0.5 = .ok (some t) := by
  have hp := Real.pi_gt_d6
  have hp' := Real.pi_lt_d6
  have hs := sidereal_2000
  norm_num at hp hp' hs
  obtain ⟨m, hm, m0, m1⟩ := star_transit (jd := ((2451544.5 : ℚ) : ℝ)) (lon := 0.5) (r := 5) (a := 0.51)
    (b := 0.7) (dT := deltaTDays 2451544.5) 0 (by norm_num)
    (by unfold gmstDegrees; push_cast; norm_num; linarith)
    (by unfold gmstDegrees; push_cast; norm_num; linarith)
  have I : TransitInput 2451544.5 (5, 5, 5) (5, 5, 5) 0.5 :=
    star_input (by rw [abs_le]; push_cast; norm_num) (by norm_num) (by linarith) (by norm_num; linarith)
      (by norm_num; linarith)
  norm_num at m0 m1
  obtain ⟨t, ht, h⟩ := transit_found (delta := 1 / 86400) I (by norm_num)
    (by norm_num; linarith) hm (by norm_num; linarith) (by norm_num; linarith)
    (by rw [deltaT_2000, abs_le]; norm_num; constructor <;> linarith)
  have := abs_le.mp h
  push_cast at this
  norm_num at this
  exact ⟨t, by linarith, by norm_num; linarith, ht⟩

/-- A repaired conversion to local time. -/
def utEnv : CronusEnv := ⟨fun x => x, fun _ => 2451545, fun ut => .ok (ut, some "UT"), .ok (), 0.5, 0, 0.5, 0⟩

theorem star_events {t : ℝ} (t0 : t ≠ 0) (ht : transit 2451544.5 (5, 5, 5) (1 / 86400) 0.5 = .ok (some t)) (q0 : List Task) :
    ∀ (ns : List String) (q new0 : List Task), Adds q0 q new0 → ∃ q' p new,
      rstEvents utEnv 2451544.5 (ns.map starObj) q = .ok (q', p) ∧ Adds q0 q' (new ++ new0) ∧ new.length = ns.length ∧
      ∀ x ∈ new, ∃ s, x = ⟨t, .display .rst s⟩ := by
  intro ns
  induction ns with
  | nil => intro q new0 h; exact ⟨q, [], [], rfl, h, rfl, by simp⟩
  | cons n ns ih =>
    intro q new0 h
    have hl : ∃ s, ltToStr utEnv.fl (dtToUt utEnv.fl (utEnv.rd t)) (zoneStr (some "UT")) "second" = .ok s := by
      unfold ltToStr; exact ⟨_, rfl⟩
    obtain ⟨s, hl⟩ := hl
    obtain ⟨q', p, new, h1, h2, h3, h4⟩ := ih _ _
      (h.push t (.display .rst (padRight 23 s ++ " " ++ (starObj n).name ++ " transits")))
    have ht' : transit 2451544.5 (starObj n).ra (1 / 86400) utEnv.gLongitude = .ok (some t) := ht
    refine ⟨q', ("****** RiseSetTransit failure: " ++ (starObj n).name ++ " rise") ::
      ("****** RiseSetTransit failure: " ++ (starObj n).name ++ " set") :: p,
      new ++ [⟨t, .display .rst (padRight 23 s ++ " " ++ (starObj n).name ++ " transits")⟩], ?_, ?_, ?_, ?_⟩
    · have hr : rise 2451544.5 (starObj n).ra (starObj n).dec (starObj n).h0.2.1 (1 / 1440) utEnv.defLongitude
          utEnv.defLatitude utEnv.gLatitude = .ok none := by
        unfold rise
        have : utEnv.defLatitude = 0 := rfl
        rw [this, star_no_rising]; rfl
      have hs : settime 2451544.5 (starObj n).ra (starObj n).dec (starObj n).h0.2.1 (1 / 1440) utEnv.defLongitude
          utEnv.defLatitude utEnv.gLatitude = .ok none := by
        unfold settime
        have : utEnv.defLatitude = 0 := rfl
        rw [this, star_no_rising]; rfl
      have hu : utEnv.utToLt (dtToUt utEnv.fl (utEnv.rd t)) = .ok (dtToUt utEnv.fl (utEnv.rd t), some "UT") := rfl
      simp only [List.map_cons, rstEvents, bind, Except.bind, hr, hs, ht', rstEvent, if_neg t0, hu, hl, h1]
      rfl
    · rw [List.append_assoc]; exact h2
    · rw [List.length_append, h3]; rfl
    · intro x hx
      rcases List.mem_append.mp hx with hx | hx
      · exact h4 x hx
      · rw [List.mem_singleton] at hx; exact ⟨_, hx⟩

theorem updateObject_total {names : List String} {G : String → RstObject} {p : String} (h : p ∈ names) (r d h0 : ℝ) :
    ∃ G' : String → RstObject, updateObject (names.map fun n => (n, G n)) p r d h0 = .ok (names.map fun n => (n, G' n)) := by
  unfold updateObject
  split
  · rename_i e
    rw [List.lookup_eq_none_iff] at e
    have := e (p, G p) (List.mem_map.mpr ⟨p, h, rfl⟩)
    simp at this
  · refine ⟨fun n => if n = p then shiftObj (G n) (r, d, h0) else G n, ?_⟩
    rw [List.map_map]
    congr 1
    refine List.map_congr_left fun n _ => ?_
    simp only [Function.comp]
    split_ifs <;> rfl

theorem updatePlanets_total {jd : ℝ} (hj : |millennia jd| ≤ 5.9) (psi eps : ℝ) {names : List String} :
    ∀ (ps : List String), (∀ p ∈ ps, p ∈ skyPlanets ∧ p ∈ names) → ∀ G : String → RstObject,
    ∃ G' : String → RstObject, updatePlanets jd psi eps ps (names.map fun n => (n, G n)) =
      .ok (names.map fun n => (n, G' n)) := by
  intro ps
  induction ps with
  | nil => intro _ G; exact ⟨G, rfl⟩
  | cons p ps ih =>
    intro h G
    obtain ⟨⟨ra, dec⟩, e⟩ := geocentric_ok (h p List.mem_cons_self).1 hj psi eps
    obtain ⟨G1, e1⟩ := updateObject_total (G := G) (h p List.mem_cons_self).2 ra dec standardRstAltitude
    obtain ⟨G2, e2⟩ := ih (fun q hq => h q (List.mem_cons_of_mem _ hq)) G1
    refine ⟨G2, ?_⟩
    simp only [updatePlanets, bind, Except.bind, e, e1, e2]

/-- C54, the claim that the events are displayed in order is false, even with a repaired conversion to local time.  In
a configuration which satisfies all invariants (the table holds stars instead of planets, so that the transits are known),
the event at 2451545.4 is displayed, then the events of that day are looked for (at the end of that day),
and then a transit before 2451545.3 is displayed. -/
theorem cronus_out_of_order : ∃ (c c' : CronusCfg) (l : List (Task × List String)), CronusInv 2000 c ∧
    CronusSteps utEnv 2460000 c l c' ∧ ∃ t s, t ≤ 2451545.3 ∧ l.map Prod.fst =
      [⟨2451545.4, .display .season "Vernal Equinox"⟩, ⟨2451545.5, .rst 2451544.5⟩, ⟨t, .display .rst s⟩] := by
  obtain ⟨t, t1, t2, ht⟩ := star_transits
  norm_num at t2
  have h0 : IsHeap Task.jd ([] : List Task) := fun i _ h => absurd h (by simp)
  have h1 : IsHeap Task.jd [(⟨2451545.5, .rst 2451544.5⟩ : Task)] := by
    intro i hi h
    simp at h
    omega
  -- the first pass
  have p1 : cronusPass utEnv ⟨⟨[⟨2451545.5, .rst 2451544.5⟩], bodies.map fun n => (n, starObj n)⟩,
      ⟨2451545.4, .display .season "Vernal Equinox"⟩⟩ =
      .ok (⟨⟨[], bodies.map fun n => (n, starObj n)⟩, ⟨2451545.5, .rst 2451544.5⟩⟩, ["Vernal Equinox"]) := rfl
  -- the second pass
  obtain ⟨q', pr, new, e1, e2, e3, e4⟩ := star_events (by linarith) ht [] bodies [] [] (Adds.refl h0)
  have era : |millennia (((2451544.5 + 2 : ℚ) : ℚ) : ℝ)| ≤ 5.9 := by
    unfold millennia
    push_cast
    rw [abs_le]
    constructor
    · rw [le_div_iff₀ (by norm_num)]; norm_num
    · rw [div_le_iff₀ (by norm_num)]; norm_num
  have r2 : ∃ d, doRiseSetTransit utEnv ⟨[], bodies.map fun n => (n, starObj n)⟩ 2451544.5 =
      .ok (⟨push q' ((2451544.5 + 2 : ℚ) : ℝ) (.rst (2451544.5 + 1)), d⟩, pr) := by
    unfold doRiseSetTransit
    have fl2 : utEnv.fl (2451544.5 + 2) = 2451544.5 + 2 := rfl
    have fl1 : utEnv.fl (2451544.5 + 1) = 2451544.5 + 1 := rfl
    have em : (bodies.map fun n => (n, starObj n)).map Prod.snd = bodies.map starObj := by
      rw [List.map_map]; rfl
    simp only [em, e1, bind, Except.bind, fl2, fl1]
    generalize ((2451544.5 + 2 : ℚ) : ℝ) = jd at *
    obtain ⟨G1, g1⟩ := updatePlanets_total era (nutationPair jd).1 (nutationPair jd).2 (names := bodies) skyPlanets
      (fun p h => ⟨h, mem_bodies.mpr (.inl h)⟩) starObj
    rw [g1]
    simp only
    obtain ⟨G2, g2⟩ := updateObject_total (G := G1) (mem_bodies.mpr (.inr (.inl rfl)))
      (moonPlace jd (nutationPair jd).1 (nutationPair jd).2).1 (moonPlace jd (nutationPair jd).1 (nutationPair jd).2).2.1
      (moonPlace jd (nutationPair jd).1 (nutationPair jd).2).2.2
    rw [g2]
    simp only
    obtain ⟨⟨ra, dec⟩, g3⟩ := sunPlace_ok jd (nutationPair jd).1 (nutationPair jd).2
    rw [g3]
    simp only
    obtain ⟨G4, g4⟩ := updateObject_total (G := G2) (mem_bodies.mpr (.inr (.inr rfl))) ra dec sunRstAltitude
    rw [g4]
    exact ⟨_, rfl⟩
  obtain ⟨d, r2⟩ := r2
  have a2 := e2.push ((2451544.5 + 2 : ℚ) : ℝ) (.rst (2451544.5 + 1))
  rw [List.append_nil] at a2
  have len : new.length = 9 := e3
  have mem : ∀ x, x ∈ push q' ((2451544.5 + 2 : ℚ) : ℝ) (.rst (2451544.5 + 1)) ↔
      x = ⟨((2451544.5 + 2 : ℚ) : ℝ), .rst (2451544.5 + 1)⟩ ∨ x ∈ new := by
    intro x
    rw [a2.2.mem_iff, List.append_nil, List.mem_cons]
  obtain ⟨y, hy⟩ : ∃ y, y ∈ new := by
    cases hn : new with
    | nil => rw [hn] at len; cases len
    | cons a b => exact ⟨a, List.mem_cons_self⟩
  rcases heappop_spec Task.jd _ a2.1 with ⟨e0, -⟩ | ⟨x, q2, e', pe, le, hq2⟩
  · have := (mem y).mpr (.inr hy)
    rw [e0] at this
    cases this
  have p2 : cronusPass utEnv ⟨⟨[], bodies.map fun n => (n, starObj n)⟩, ⟨2451545.5, .rst 2451544.5⟩⟩ =
      .ok (⟨⟨q2, d⟩, x⟩, pr) := by
    unfold cronusPass runTask
    simp only [r2, bind, Except.bind, popTask, e']
  have hx : ∃ s, x = ⟨t, .display .rst s⟩ := by
    rcases (mem x).mp (pe.mem_iff.mpr List.mem_cons_self) with e | hx
    · exfalso
      have hy' : y ∈ x :: q2 := pe.mem_iff.mp ((mem y).mpr (.inr hy))
      obtain ⟨s, hs⟩ := e4 y hy
      rcases List.mem_cons.mp hy' with h | h
      · rw [hs, e] at h; cases h
      · have := le y h
        rw [hs, e] at this
        have h' : ((2451544.5 + 2 : ℚ) : ℝ) ≤ t := this
        push_cast at h'
        norm_num at h'
        linarith
    · exact e4 x hx
  obtain ⟨s, hx⟩ := hx
  subst hx
  -- the third pass
  have p3 : ∃ c3, cronusPass utEnv ⟨⟨q2, d⟩, ⟨t, .display .rst s⟩⟩ = .ok (c3, [s]) := by
    rcases heappop_spec Task.jd _ hq2 with ⟨e0, -⟩ | ⟨x3, q3, e3', -⟩
    · have := pe.length_eq
      have l2 := a2.2.length_eq
      rw [this] at l2
      rw [e0] at l2
      simp [len] at l2
    · refine ⟨⟨⟨q3, d⟩, x3⟩, ?_⟩
      unfold cronusPass runTask
      simp only [bind, Except.bind, popTask, e3']
  obtain ⟨c3, p3⟩ := p3
  refine ⟨_, c3, _, ⟨h1, ?_, ?_, ?_⟩, .step ?_ p1 (.step ?_ p2 (.step ?_ p3 (.refl _))), t, s, ?_, rfl⟩
  · intro x hx
    rw [List.mem_singleton.mp hx]
    norm_num
  · intro x hx
    simp only [List.mem_cons, List.not_mem_nil, or_false] at hx
    rcases hx with rfl | rfl
    · trivial
    · have ej : cj 2000 1 1 = 2451544.5 := by
        unfold cj
        have nx : ¬ Exceptional true 2000 1 := by
          rintro ⟨-, c, h1, -, -, h4⟩; rcases h4 with ⟨h, -⟩ | ⟨h, h'⟩ <;> omega
        rw [(excess_eq true 2000 1 (by omega)).2 nx]
        unfold jd0 jdn epoch
        rw [dayOfYear_1, daysToYear_true]
        norm_num
      refine ⟨⟨2451545, by norm_num⟩, by rw [ej], .inr ?_⟩
      norm_num
  · intro x hx src str e
    simp only [List.mem_cons, List.not_mem_nil, or_false] at hx
    rcases hx with rfl | rfl
    · norm_num
    · cases e
  · norm_num
  · norm_num
  · show t < 2460000
    linarith
  · norm_num; linarith

end
end Verif

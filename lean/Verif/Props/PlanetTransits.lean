import Verif.Lemmas.PlanetDay
import Verif.Props.CronusTransits

/-!
# C107: transits of the planets

The theorems on `transit` ask for right ascensions which change slowly enough from day to day.  Here this is shown of every
entry of the table of `cronus`, the planets included, so that these theorems hold of all nine bodies.
-/

namespace Verif
open Real

noncomputable section

/-- C107: from one day to the next the apparent right ascension of a planet changes by at most 0.26 radian, and the change
itself changes by at most 0.095. -/
theorem planet_right_ascension_slow {n : String} (hn : n ∈ skyPlanets) {jd : ℝ} (h : |millennia jd| ≤ 5.89) :
    ∃ a0 a1 a2 d0 d1 d2 : ℝ, place (jd - 1) n = .ok (a0, d0, standardRstAltitude) ∧
      place jd n = .ok (a1, d1, standardRstAltitude) ∧ place (jd + 1) n = .ok (a2, d2, standardRstAltitude) ∧
      ∃ k0 k2 : ℤ, |a1 - (a0 + k0 * (2 * π))| ≤ 0.26 ∧ |a2 + k2 * (2 * π) - a1| ≤ 0.26 ∧
        |a2 + k2 * (2 * π) - 2 * a1 + (a0 + k0 * (2 * π))| ≤ 0.095 := by
  have hp : n ∈ knownPlanets ∧ n ≠ "Earth" := by
    unfold skyPlanets at hn; revert n; decide
  obtain ⟨y, d, p0, p1, p2, u, ⟨⟨-, -, j0, e0⟩, ⟨-, -, j1, e1⟩, ⟨-, -, j2, e2⟩⟩, s1, s2, s3⟩ :=
    planet_day_slow hp.1 hp.2 h
  refine ⟨_, _, _, _, _, _, p0, p1, p2, j1 - j0, j1 - j2, ?_, ?_, ?_⟩
  · refine le_trans (le_of_eq ?_) s1
    congr 1; push_cast; rw [e0, e1]; ring
  · refine le_trans (le_of_eq ?_) s2
    congr 1; push_cast; rw [e1, e2]; ring
  · refine le_trans (le_of_eq ?_) s3
    congr 1; push_cast; rw [e0, e1, e2]; ring

/-- The hypotheses hold of Mercury at noon of 2000 January 1. -/
example : ("Mercury" : String) ∈ skyPlanets ∧ |millennia 2451545| ≤ 5.89 :=
  ⟨by decide, by unfold millennia; norm_num⟩

/-- Every entry of the table meets what the theorems on `transit` ask for. -/
theorem table_input {dict : List (String × RstObject)} {a : ℚ} (h : IsTable dict a) {n : String} (hn : n ∈ bodies)
    (era : |(a : ℝ) - 2451545| ≤ 720000) {lon : ℝ} (l0 : -π ≤ lon) (l1 : lon ≤ π) :
    ∃ u, TransitInput a (entry a n).ra u lon := by
  have era' : |(a : ℝ) - 2451545| ≤ 1100000 := era.trans (by norm_num)
  rcases mem_bodies.mp hn with hp | rfl | rfl
  · obtain ⟨⟨u, hu⟩, ⟨v, hv⟩, ⟨w, hw⟩⟩ := h.2 n hn
    have hk : n ∈ knownPlanets ∧ n ≠ "Earth" := by
      unfold skyPlanets at hp; clear hu hv hw hn h; revert n; decide
    obtain ⟨y, d, p0, p1, p2, u', hr, hs⟩ := planet_day_slow hk.1 hk.2 ((era_millennia era').trans (by norm_num))
    refine ⟨u', era', ?_, slow_mono hs (by norm_num) (by norm_num), l0, l1⟩
    have e : (entry a n).ra = y := by
      unfold entry
      simp only
      push_cast
      rw [placeVal_of p0, placeVal_of p1, placeVal_of p2]
    rw [e]; exact hr
  · have h9 : |centuries (a : ℝ)| ≤ 19.9 := by
      unfold centuries; rw [abs_le] at era ⊢; norm_num at era ⊢; constructor <;> linarith
    obtain ⟨u, -, -, hr, su, -⟩ := moon_day h9 (table_moon h)
    exact ⟨u, era', hr, slow_mono su (by norm_num) (by norm_num), l0, l1⟩
  · obtain ⟨u, -, -, hr, su, -⟩ := sun_day ((era_millennia era').trans (by norm_num)) (table_sun h)
    exact ⟨u, era', hr, slow_mono su (by norm_num) (by norm_num), l0, l1⟩

/-- The body, with its right ascension interpolated from the places of three days, is in the meridian `m` days after `a`. -/
def CrossesAt (a : ℚ) (n : String) (lon m : ℝ) : Prop :=
  ∃ u, Reduced (entry a n).ra u ∧ Slow 0.4 0.1 u ∧ InMeridian a lon (deltaTDays a) u m

/-- C107: the time queued for the transit of any body is within a ninth of a second of a time at which the body, with its
right ascension interpolated from the places of the three days, is in the meridian. -/
theorem cronus_line_crosses {env : CronusEnv} (l0 : -π ≤ env.gLongitude) (l1 : env.gLongitude ≤ π)
    {dict : List (String × RstObject)} {a : ℚ} (era : |(a : ℝ) - 2451545| ≤ 720000) (hT : IsTable dict a) {n : String}
    (hn : n ∈ bodies) {ut : ℚ} {x : Task} (hx : TransitLine env a n (entry a n).ra ut x) :
    ∃ m, CrossesAt a n env.gLongitude m ∧ |x.jd - (a + m)| ≤ 0.101 / 86400 ∧ -0.11 ≤ m ∧ m ≤ 1.11 := by
  obtain ⟨u, I⟩ := table_input hT hn era l0 l1
  obtain ⟨m, h1, h2, h3, h4⟩ := transit_sound I (by norm_num) hx.1
  exact ⟨m, ⟨u, I.red, I.slow, h1⟩, h2.trans (by norm_num), h3, h4⟩

/-- C107: when a day has been done, a line has been queued for every body which crosses the meridian in the middle eight
tenths of it, within a ninth of a second of the crossing. -/
theorem cronus_crossing_queued {env : CronusEnv} (hf : FloatLike env.fl) {start stop : ℤ} (hs : -1000 ≤ start)
    (hstop : stop ≤ 2 ^ 40) {l : List (Task × List String)} {c c' : CronusCfg} (h : CronusRun env start stop l c)
    {a : ℚ} (hj : c.cur.job = .rst a) {p : List String} (hp : cronusPass env c = .ok (c', p))
    (era : |(a : ℝ) - 2451545| ≤ 720000) (l0 : -π ≤ env.gLongitude) (l1 : env.gLongitude ≤ π) {n : String}
    (hn : n ∈ bodies) {m : ℝ} (h0 : 0.1 ≤ m) (h1 : m ≤ 0.9) (hd : |m + deltaTDays a| ≤ 0.89)
    (hm : CrossesAt a n env.gLongitude m) :
    ∃ x ∈ c'.cur :: c'.st.queue, TransitLine env a n (entry a n).ra (dtToUt env.fl (env.rd x.jd)) x ∧
      |x.jd - (a + m)| ≤ 0.101 / 86400 := by
  obtain ⟨ns, new, pm, sub, lines, all⟩ := cronus_transit_lines hf hs hstop h hj hp
  obtain ⟨u, hr, su, hm⟩ := hm
  have I : TransitInput a (entry a n).ra u env.gLongitude := ⟨era.trans (by norm_num), hr, su, l0, l1⟩
  have ok : ∃ o, transit a (entry a n).ra (1 / 86400) env.gLongitude = .ok o := by
    rcases all _ hn with k | ⟨-, k | k⟩
    · obtain ⟨x, -, hx⟩ := forall₂_mem lines k
      exact ⟨_, hx.1⟩
    · exact ⟨_, k⟩
    · exact ⟨_, k⟩
  have hlow : -(2 * π) ≤ (entry a n).ra.2.1 + env.gLongitude - siderealTimeGreenwich a := by
    by_contra hc
    obtain ⟨o, ho⟩ := ok
    have := (transit_refused_iff (delta := 1 / 86400) I).mpr (not_le.mp hc)
    rw [ho] at this
    cases this
  obtain ⟨t, ht, hb⟩ := transit_found (delta := 1 / 86400) I (by norm_num) hlow hm h0 h1 hd
  have tpos : t ≠ 0 := by
    rw [abs_le] at hb era
    norm_num at hb era h0 h1
    have := hb.1
    intro h00
    rw [h00] at this
    linarith [era.1]
  rcases all _ hn with k | ⟨-, k | k⟩
  · obtain ⟨x, hx, hl⟩ := forall₂_mem lines k
    refine ⟨x, pm.mem_iff.mpr (List.mem_cons_of_mem _ (List.mem_append_left _ hx)), hl, ?_⟩
    have e1 := hl.1
    rw [ht] at e1
    cases e1
    exact hb.trans (by norm_num)
  · rw [ht] at k; cases k
  · rw [ht] at k; cases k; exact absurd rfl tpos

/-- C107: when a day has been done, a line has been queued for each of the nine bodies, or the failure printed is that of a
body which crosses the meridian in the last fifth of the day or shortly afterwards. -/
theorem cronus_line_or_late {env : CronusEnv} (hf : FloatLike env.fl) {start stop : ℤ} (hs : -1000 ≤ start)
    (hstop : stop ≤ 2 ^ 40) {l : List (Task × List String)} {c c' : CronusCfg} (h : CronusRun env start stop l c)
    {a : ℚ} (hj : c.cur.job = .rst a) {p : List String} (hp : cronusPass env c = .ok (c', p))
    (h0 : 2313120 ≤ a) (h1 : a ≤ 2456930) (l0 : -π ≤ env.gLongitude) (l1 : env.gLongitude ≤ π) {n : String}
    (hn : n ∈ bodies) :
    (∃ x ∈ c'.cur :: c'.st.queue, TransitLine env a n (entry a n).ra (dtToUt env.fl (env.rd x.jd)) x) ∨
      ("****** RiseSetTransit failure: " ++ n ++ " transit") ∈ p ∧
        ∃ m, CrossesAt a n env.gLongitude m ∧ 0.79 ≤ m ∧ m ≤ 1.11 := by
  have h0' : (2313120 : ℝ) ≤ a := by exact_mod_cast h0
  have h1' : (a : ℝ) ≤ 2456930 := by exact_mod_cast h1
  have era : |(a : ℝ) - 2451545| ≤ 720000 := by rw [abs_le]; constructor <;> linarith
  obtain ⟨ns, new, pm, sub, lines, all⟩ := cronus_transit_lines hf hs hstop h hj hp
  obtain ⟨k', -, hT⟩ := cronus_tables hf hs hstop h
  obtain ⟨u, I⟩ := table_input (hT a hj).2 hn era l0 l1
  have hlow : ∀ o, transit a (entry a n).ra (1 / 86400) env.gLongitude = .ok o →
      -(2 * π) ≤ (entry a n).ra.2.1 + env.gLongitude - siderealTimeGreenwich a := by
    intro o ho
    by_contra hc
    have := (transit_refused_iff (delta := 1 / 86400) I).mpr (not_le.mp hc)
    rw [ho] at this
    cases this
  rcases all _ hn with k | ⟨q, k | k⟩
  · left
    obtain ⟨x, hx, hl⟩ := forall₂_mem lines k
    exact ⟨x, pm.mem_iff.mpr (List.mem_cons_of_mem _ (List.mem_append_left _ hx)), hl⟩
  · right
    refine ⟨q, ?_⟩
    rcases transit_none (delta := 1 / 86400) I (by norm_num) (hlow _ k)
      ((deltaTDays_small h0 h1).trans (by norm_num)) with ⟨t, ht⟩ | ⟨-, m, hm, m0, m1⟩
    · rw [ht] at k; cases k
    · exact ⟨m, ⟨u, I.red, I.slow, hm⟩, m0, m1⟩
  · exfalso
    obtain ⟨m, -, hb, m0, -⟩ := transit_sound I (by norm_num) k
    rw [abs_le] at hb
    norm_num at hb m0
    linarith [hb.1]

/-- C107: `transit` refuses a body on a day just when its right ascension and the longitude together are more than a turn
below the sidereal time, so never when the longitude is not negative. -/
theorem cronus_transit_refused_iff {dict : List (String × RstObject)} {a : ℚ} (h : IsTable dict a) {n : String}
    (hn : n ∈ bodies) (h0 : 2313120 ≤ a) (h1 : a ≤ 2456930) {lon : ℝ} (l0 : -π ≤ lon) (l1 : lon ≤ π) :
    (∃ e, transit a (entry a n).ra (1 / 86400) lon = .error e) ↔
      (entry a n).ra.2.1 + lon - siderealTimeGreenwich a < -(2 * π) := by
  have h0' : (2313120 : ℝ) ≤ a := by exact_mod_cast h0
  have h1' : (a : ℝ) ≤ 2456930 := by exact_mod_cast h1
  have era : |(a : ℝ) - 2451545| ≤ 720000 := by rw [abs_le]; constructor <;> linarith
  obtain ⟨u, I⟩ := table_input h hn era l0 l1
  constructor
  · rintro ⟨e, he⟩
    by_contra hc
    rcases transit_none (delta := 1 / 86400) I (by norm_num) (not_lt.mp hc)
      ((deltaTDays_small h0 h1).trans (by norm_num)) with ⟨t, ht⟩ | ⟨ht, -⟩ <;> rw [he] at ht <;> cases ht
  · intro hc
    exact ⟨_, (transit_refused_iff I).mpr hc⟩

/-- The hypotheses hold of the table of 2000 January 1, where the right ascension of no body is refused at longitude 0. -/
example {n : String} (hn : n ∈ bodies) : ¬ ∃ e, transit 2451544.5 (entry 2451544.5 n).ra (1 / 86400) 0 = .error e := by
  rw [cronus_transit_refused_iff table_2000 hn (by norm_num) (by norm_num) (by linarith [pi_pos]) (by linarith [pi_pos])]
  obtain ⟨u, I⟩ := table_input table_2000 hn (by push_cast; rw [abs_le]; norm_num) (lon := 0)
    (by linarith [pi_pos]) (by linarith [pi_pos])
  have := I.red.2.1.1
  have hst := sidereal_2000
  norm_num at hst ⊢
  linarith [pi_gt_three]

/-! ### 2000 January 1 -/

/-- C107: on 2000 January 1 there is, for each of the nine bodies, a place where it crosses the meridian half a day later
and the code finds this. -/
theorem bodies_cross_2000 {n : String} (hn : n ∈ bodies) :
    ∃ lon t : ℝ, -π < lon ∧ lon ≤ π ∧ CrossesAt 2451544.5 n lon 0.5 ∧
      transit 2451544.5 (entry 2451544.5 n).ra (1 / 86400) lon = .ok (some t) ∧ |t - 2451545| ≤ 0.101 / 86400 := by
  obtain ⟨u, I0⟩ := table_input table_2000 hn (by push_cast; rw [abs_le]; norm_num) (lon := 0)
    (by linarith [pi_pos]) (by linarith [pi_pos])
  have dT := deltaT_2000
  have hst := sidereal_2000
  have hp := Real.pi_gt_d6
  norm_num at hst hp
  set g := hourAngle (2451544.5 : ℚ) 0 (deltaTDays 2451544.5) u 0.5 with hg
  set lon := toIocMod Real.two_pi_pos (-π) g with hlon
  obtain ⟨b0, b1⟩ := toIocMod_mem_Ioc Real.two_pi_pos (-π) g
  rw [← hlon] at b0 b1
  have b1' : lon ≤ π := by linarith
  have I : TransitInput 2451544.5 (entry 2451544.5 n).ra u lon := ⟨I0.era, I0.red, I0.slow, b0.le, b1'⟩
  have cross : InMeridian (2451544.5 : ℚ) lon (deltaTDays 2451544.5) u 0.5 := by
    refine ⟨toIocDiv Real.two_pi_pos (-π) g, ?_⟩
    have := toIocMod_add_toIocDiv_zsmul Real.two_pi_pos (-π) g
    rw [← hlon, zsmul_eq_mul] at this
    unfold hourAngle at hg ⊢
    linarith
  obtain ⟨t, ht, hb⟩ := transit_found (delta := 1 / 86400) I (by norm_num)
    (by have := I.red.2.1.1; push_cast; norm_num; linarith) cross (by norm_num) (by norm_num)
    (by rw [dT, abs_le]; norm_num)
  refine ⟨lon, t, b0, b1', ⟨u, I.red, I.slow, cross⟩, ht, ?_⟩
  refine le_trans (le_of_eq ?_) (hb.trans (by norm_num))
  congr 1; push_cast; norm_num

end

end Verif

import Verif.Lemmas.MoonRise
import Verif.Props.CalendarCases

/-!
# C108: how long `cronus` can run

`rise` brings its first estimate into the interval from 0 to 1 by adding 1 at most once and raises if this is not enough.
With the longitude and latitude it uses (both 0) this happens to the Moon within 400 days of every start.
-/

namespace Verif
open Real
open Spec

noncomputable section

/-- C108, a defect: within 400 days of every day there is one on which `rise`, called as in `cronus`, raises for the
Moon. -/
theorem moon_rise_raises {a : ℚ} (h : |centuries (a : ℝ)| ≤ 19.8) : ∃ k : ℕ, k ≤ 400 ∧ ∀ delta phi : ℝ,
    rise (a + k) (entry (a + k) "Moon").ra (entry (a + k) "Moon").dec (entry (a + k) "Moon").h0.2.1 delta 0 0 phi =
      .error (.Error "riseset" "m is out of range") := by
  have h' : |(a : ℝ) - 2451545| ≤ 723195 := by
    unfold centuries at h; rw [abs_le] at h ⊢; norm_num at h ⊢; constructor <;> linarith
  obtain ⟨k, k1, hk⟩ := sidereal_window (h'.trans (by norm_num))
  have kr : (k : ℝ) ≤ 366 := by exact_mod_cast k1
  have k0 : (0 : ℝ) ≤ k := Nat.cast_nonneg k
  obtain ⟨j, j1, i, l0, l1⟩ := moon_window (a := (a : ℝ) + k) (by
    unfold centuries; rw [abs_le] at h' ⊢; norm_num; constructor <;> linarith)
  have jr : (j : ℝ) ≤ 34 := by exact_mod_cast j1
  have j0 : (0 : ℝ) ≤ j := Nat.cast_nonneg j
  have e : ((a + (k + j : ℕ) : ℚ) : ℝ) = a + (k + j : ℕ) := by push_cast; ring
  have e' : ((a + (k + j : ℕ) : ℚ) : ℝ) = a + k + j := by push_cast; ring
  refine ⟨k + j, by omega, fun delta phi => moon_rise_refused (i := i) ?_ ?_ ?_ ?_ delta phi⟩
  · rw [e']; unfold centuries; rw [abs_le] at h' ⊢; norm_num; constructor <;> linarith
  · rw [e]; exact hk j j1
  · rw [e']; exact l0
  · rw [e']; exact l1

/-- The hypothesis holds of 2000 January 1. -/
example : |centuries ((2451544.5 : ℚ) : ℝ)| ≤ 19.8 := by unfold centuries; push_cast; norm_num [abs_le]

theorem rstEvents_raises {env : CronusEnv} {jd : ℚ} {o : RstObject} {e : PyErr}
    (h : rise jd o.ra o.dec o.h0.2.1 (1 / 1440) env.defLongitude env.defLatitude env.gLatitude = .error e) :
    ∀ {os : List RstObject}, o ∈ os → ∀ q r, rstEvents env jd os q ≠ .ok r := by
  intro os
  induction os with
  | nil => simp
  | cons o' os ih =>
    intro ho q r hr
    unfold rstEvents at hr
    simp only [bind, Except.bind] at hr
    rcases List.mem_cons.mp ho with rfl | ho
    · rw [h] at hr; cases hr
    · split at hr
      · cases hr
      split at hr
      · cases hr
      split at hr
      · cases hr
      split at hr
      · cases hr
      split at hr
      · cases hr
      split at hr
      · cases hr
      split at hr
      · cases hr
      rename_i hr'
      exact ih ho _ _ hr'

/-- The pass in which a task of a trace was done. -/
theorem steps_split {env : CronusEnv} {s : ℝ} {c c' : CronusCfg} {l : List (Task × List String)}
    (h : CronusSteps env s c l c') {x : Task × List String} (hx : x ∈ l) :
    ∃ l1 c1 c2, CronusSteps env s c l1 c1 ∧ c1.cur = x.1 ∧ cronusPass env c1 = .ok (c2, x.2) := by
  induction h with
  | refl => simp at hx
  | @step c c1 c2 l p hlt hp _ ih =>
    rcases List.mem_cons.mp hx with rfl | hx
    · exact ⟨[], c, c1, .refl _, rfl, hp⟩
    · obtain ⟨l1, d1, d2, a, b, e⟩ := ih hx
      exact ⟨_, d1, d2, .step hlt hp a, b, e⟩

theorem january_era {y : ℤ} (h0 : 100 ≤ y) (h1 : y ≤ 3900) : |centuries ((cj y 1 1 : ℚ) : ℝ)| ≤ 19.8 := by
  obtain ⟨a, b⟩ := excess_range 1 (show -4711 ≤ y by omega)
  have d : 1728400 ≤ jdn true y 1 1 ∧ jdn true y 1 1 ≤ 3174700 := by
    unfold jdn epoch
    rw [dayOfYear_1, daysToYear_true]
    simp only [if_true]
    omega
  have e : cj y 1 1 = ((jdn true y 1 1 + excess true y 1 : ℤ) : ℚ) - 1 / 2 := by unfold cj jd0; push_cast; ring
  have l : (1728400 : ℤ) ≤ jdn true y 1 1 + excess true y 1 := by omega
  have u : jdn true y 1 1 + excess true y 1 ≤ 3174701 := by omega
  rw [e]
  generalize jdn true y 1 1 + excess true y 1 = n at l u
  have l' : (1728400 : ℝ) ≤ n := by exact_mod_cast l
  have u' : (n : ℝ) ≤ 3174701 := by exact_mod_cast u
  unfold centuries
  push_cast
  rw [abs_le]
  norm_num
  constructor <;> linarith

/-- C108: with the longitude and latitude of the parameters of `rise` and `settime` as they are (0), at most 400 days are
done in any run, whatever the conversion to local time. -/
theorem cronus_days_end {env : CronusEnv} (hf : FloatLike env.fl) (hlon : env.defLongitude = 0) (hlat : env.defLatitude = 0)
    {start stop : ℤ} (h0 : 100 ≤ start) (h1 : start ≤ 3900) (hstop : stop ≤ 2 ^ 40) {l : List (Task × List String)}
    {c : CronusCfg} (h : CronusRun env start stop l c) : (rstDays l).length ≤ 400 := by
  obtain ⟨k, k1, hk⟩ := moon_rise_raises (january_era h0 h1)
  obtain ⟨n, hn, -⟩ := cronus_tables hf (by omega) hstop h
  rw [hn, List.length_map, List.length_range]
  by_contra hc
  have hm : cj start 1 1 + (k : ℚ) ∈ rstDays l := by
    rw [hn]
    exact List.mem_map.mpr ⟨k, List.mem_range.mpr (by omega), rfl⟩
  unfold rstDays at hm
  obtain ⟨x, hx, ex⟩ := List.mem_filterMap.mp hm
  have job : x.1.job = .rst (cj start 1 1 + k) := by
    cases hj : x.1.job <;> rw [hj] at ex <;> simp only [reduceCtorEq, Option.some.injEq] at ex
    rw [ex]
  cases h with
  | intro i1 i2 i3 =>
    obtain ⟨l1, c1, c2, s1, e1, p1⟩ := steps_split i3 hx
    obtain ⟨n', -, hT⟩ := cronus_tables hf (by omega) hstop (.intro i1 i2 s1)
    obtain ⟨-, hT⟩ := hT _ (by rw [e1]; exact job)
    obtain ⟨st, r1, -⟩ := cronusPass_ok p1
    unfold runTask at r1
    rw [e1, job] at r1
    simp only at r1
    unfold doRiseSetTransit at r1
    simp only [bind, Except.bind] at r1
    split at r1
    · cases r1
    rename_i r he
    refine rstEvents_raises (o := entry (cj start 1 1 + k) "Moon") (e := .Error "riseset" "m is out of range") ?_ ?_ _ _ he
    · rw [hlon, hlat]; exact hk _ _
    · rw [hT.1, List.map_map]
      exact List.mem_map.mpr ⟨"Moon", mem_bodies.mpr (.inr (.inl rfl)), rfl⟩

/-- C108, a defect: a run to a day more than 402 days after the start never reaches its end: `cronus` cannot display two
years. -/
theorem cronus_never_ends {env : CronusEnv} (hf : FloatLike env.fl) (hlon : env.defLongitude = 0)
    (hlat : env.defLatitude = 0) {start stop : ℤ} (h0 : 100 ≤ start) (h1 : start ≤ 3900) (hstop : stop ≤ 2 ^ 40)
    (long : cj start 1 1 + 402 ≤ stop) {l : List (Task × List String)} {c : CronusCfg}
    (h : CronusRun env start stop l c) : c.cur.jd < stop := by
  have len := cronus_days_end hf hlon hlat h0 h1 hstop h
  cases h with
  | @intro _ st0 _ _ _ i1 i2 i3 =>
    obtain ⟨y2, rfl, i, z⟩ := cronusInit_inv hf (by omega) i1 i2
    obtain ⟨-, -, ih, ip⟩ := cronusInit_ok hf (by omega) i1
    obtain ⟨p1, -, -, p4⟩ := popTask_ok ih i2
    have q := (p1.symm.trans ip).filter fun t => t.job.isRst
    have ht : IsTable st0.dict (cj start 1 1) := by
      unfold cronusInit at i1
      simp only [bind, Except.bind] at i1
      split at i1
      · cases i1
      split at i1
      · cases i1
      rename_i st' he
      cases i1
      exact initRST_table hf (by omega) he
    rw [← p4] at ht
    obtain ⟨n, n1, J, n2, -⟩ := rst_steps hf (by omega) y2 (by exact_mod_cast hstop) i3 i 0
      ⟨0, by simp only [Nat.cast_zero, add_zero]; exact q, by simpa using ht⟩
    rw [n1, List.length_map, List.length_range] at len
    rw [zero_add] at n2
    have i' := (steps_above hf (by omega) y2 (by exact_mod_cast hstop) i3 i 0 (fun x hx => above_of_le (z x hx).ge)).2.2.2.2
    have hm := (List.mem_filter.mp (n2.mem_iff.mpr List.mem_cons_self)).1
    have due := i'.due _ hm
    unfold Due at due
    simp only at due
    have le : c.cur.jd ≤ J := by
      rcases List.mem_cons.mp hm with e | hm
      · rw [← e]
      · exact i'.least _ hm
    have c0 := (cj_january (y := start) (by omega) y2).1
    have n' : (n : ℚ) ≤ 400 := by exact_mod_cast len
    have far : ((cj start 1 1 + n + 1 : ℚ) : ℝ) < ((stop : ℚ) : ℝ) := by
      rw [Rat.cast_lt]; linarith
    have c0' : (0 : ℝ) < ((stop : ℚ) : ℝ) := by
      rw [← Rat.cast_zero, Rat.cast_lt]; linarith
    rw [Rat.cast_intCast] at far c0'
    rcases due.2.2 with ⟨e, -⟩ | e
    · linarith
    · linarith

/-- The hypotheses are met: there are runs with such parameters to such a day. -/
example : ∃ env : CronusEnv, FloatLike env.fl ∧ env.defLongitude = 0 ∧ env.defLatitude = 0 ∧
    (∀ ut, env.utToLt ut = .ok (ut, some "UT")) ∧ cj 2000 1 1 + 402 ≤ 2460000 ∧ ∃ c, CronusRun env 2000 2460000 [] c := by
  refine ⟨⟨rne, fun _ => 0, fun ut => .ok (ut, some "UT"), .ok (), 0, 0, 1, 1⟩, rne_like, rfl, rfl, fun _ => rfl,
    by
      unfold cj
      have nx : ¬ Exceptional true 2000 1 := by
        rintro ⟨-, c, h1, -, -, h4⟩; rcases h4 with ⟨h, -⟩ | ⟨h, h'⟩ <;> omega
      rw [(excess_eq true 2000 1 (by omega)).2 nx]
      unfold jd0 jdn epoch
      rw [dayOfYear_1, daysToYear_true]
      norm_num, ?_⟩
  obtain ⟨st, c, h1, h2⟩ := cronusInit_total (env := ⟨rne, fun _ => 0, fun ut => .ok (ut, some "UT"), .ok (), 0, 0, 1, 1⟩)
    rne_like rfl (start := 2000) (by norm_num) (by norm_num) 2460000
  exact ⟨c, .intro h1 h2 (.refl _)⟩

end

end Verif

import Verif.Lemmas.EqPublished
import Verif.Props.EquinoxAccuracy
import Verif.Props.FloatEquinox

/-!
# C90: the published times of equinoxes and solstices

The times which Meeus gives to the second; `tests/test_equinox.py` compares them with the results for
one start and one precision, to thirteen seconds.
-/

namespace Verif
open Real Spec

/-- C90: the apparent longitude of the Sun reaches the value of the season less than 0.87 seconds from
the published time. -/
theorem published_event (e : PublishedEvent) (he : e ∈ publishedEvents) (circ : ℝ)
    (hs : (e.season, circ) ∈ seasonAngle) :
    ∃ x, IsEvent circ x ∧ |x - (e.time : ℚ)| * 86400 ≤ 0.87 := by
  obtain ⟨-, h0, h1⟩ := seasonAngle_circle hs
  obtain ⟨u, hu, hn⟩ := pub_all e he
  obtain ⟨x, xd, xv⟩ := pub_event hu
  have n := pub_time hn
  have ec : circ = seasonIndex e.season * (π / 2) := by
    simp only [seasonAngle, List.mem_cons, List.not_mem_nil, or_false, Prod.mk.injEq] at hs
    rcases hs with ⟨h, rfl⟩ | ⟨h, rfl⟩ | ⟨h, rfl⟩ | ⟨h, rfl⟩ <;> rw [h] <;> unfold deg <;>
      simp [seasonIndex] <;> ring
  refine ⟨x, ?_, ?_⟩
  · rw [isEvent_iff h0 h1, xv, ec]
    refine ⟨e.year - 1999, ?_⟩
    push_cast; ring
  · have t := abs_sub_le x ((u : ℝ) * 1e-12 * 365250 + 2451545) (e.time : ℚ)
    norm_num at xd n t ⊢
    linarith

/-- The published times are near J2000. -/
theorem published_era : ∀ e ∈ publishedEvents, |millennia (e.time : ℚ)| ≤ 1 := by
  intro e he
  obtain ⟨u, -, hn⟩ := pub_all e he
  have n := pub_time hn
  have d : ∀ e ∈ publishedEvents, 1900 ≤ e.year ∧ e.year ≤ 2100 ∧ 1 ≤ e.day ∧ e.day ≤ 31 ∧
      0 ≤ e.hour ∧ e.hour ≤ 24 ∧ 0 ≤ e.minute ∧ e.minute ≤ 60 ∧ 0 ≤ e.second ∧ e.second ≤ 60 := by decide +kernel
  obtain ⟨d1, d2, d3, d4, d5, d6, d7, d8, d9, d10⟩ := d e he
  have hm : seasonMonth e.season = 3 ∨ seasonMonth e.season = 6 ∨ seasonMonth e.season = 9 ∨
      seasonMonth e.season = 12 := by unfold seasonMonth; split_ifs <;> simp
  have j1 : 2400000 ≤ jdnClosed e.year (seasonMonth e.season) e.day ∧
      jdnClosed e.year (seasonMonth e.season) e.day ≤ 2500000 := by
    unfold jdnClosed
    split_ifs <;> omega
  unfold PublishedEvent.time jd0 millennia
  rw [jdnClosed_eq _ _ _ hm]
  generalize jdnClosed e.year (seasonMonth e.season) e.day = j at *
  have s1 : 0 ≤ 3600 * e.hour + 60 * e.minute + e.second ∧ 3600 * e.hour + 60 * e.minute + e.second ≤ 100000 := by
    omega
  generalize 3600 * e.hour + 60 * e.minute + e.second = s at *
  have a1 : (2400000 : ℝ) ≤ j := by exact_mod_cast j1.1
  have a2 : (j : ℝ) ≤ 2500000 := by exact_mod_cast j1.2
  have a3 : (0 : ℝ) ≤ s := by exact_mod_cast s1.1
  have a4 : (s : ℝ) ≤ 100000 := by exact_mod_cast s1.2
  push_cast
  rw [abs_le]
  constructor
  · rw [le_div_iff₀ (by norm_num)]; linarith
  · rw [div_le_iff₀ (by norm_num)]; linarith

/-- C90: `equinox` started anywhere within 149 days of the published time finds it, to 0.87 seconds and 5.6
percent of the precision. -/
theorem equinox_meets_published (e : PublishedEvent) (he : e ∈ publishedEvents) (jd : ℝ)
    (h : |jd - (e.time : ℚ)| ≤ 149) (delta : ℝ) (hd : 1e-20 ≤ delta) :
    ∃ t, equinox jd e.season delta = .ok t ∧ |t - (e.time : ℚ)| * 86400 ≤ 0.87 + 0.056 * (delta * 86400) := by
  obtain ⟨circ, hs⟩ : ∃ circ, (e.season, circ) ∈ seasonAngle := by
    have d : ∀ e ∈ publishedEvents, e.season = "spring" ∨ e.season = "summer" ∨ e.season = "autumn" ∨
      e.season = "winter" := by decide +kernel
    rcases d e he with h | h | h | h <;> rw [h] <;> simp [seasonAngle]
  obtain ⟨x, ex, xd⟩ := published_event e he circ hs
  have m := published_era e he
  have mj : |millennia jd| ≤ 5.9 := by
    rw [show millennia jd = millennia (e.time : ℚ) + (jd - (e.time : ℚ)) / 365250 by unfold millennia; ring]
    refine (abs_add_le _ _).trans ?_
    rw [abs_div, abs_of_pos (by norm_num : (0 : ℝ) < 365250)]
    have : |jd - (e.time : ℚ)| / 365250 ≤ 1 := by rw [div_le_iff₀ (by norm_num)]; linarith
    norm_num; linarith
  have xj : |x - jd| ≤ 150 := by
    have := abs_sub_le x (e.time : ℚ) jd
    rw [abs_sub_comm ((e.time : ℚ) : ℝ) jd] at this
    norm_num at xd; linarith
  obtain ⟨t, ht, tx⟩ := equinox_nearest jd mj e.season circ x hs ex xj delta hd
  refine ⟨t, ht, ?_⟩
  have := abs_sub_le t x (e.time : ℚ)
  linarith

/-- C90: the same in binary64, for precisions down to `1e-7` day, with five more milliseconds. -/
theorem equinox_meets_published_float {fl : ℚ → ℚ} (hf : FloatLike fl) {lib : NumLib} (hl : lib.Good fl 64)
    (e : PublishedEvent) (he : e ∈ publishedEvents) (jd : ℚ) (h : |jd - e.time| ≤ 149) (delta : ℚ)
    (hd : 1e-7 ≤ delta) :
    ∃ t, equinoxF fl lib jd e.season delta = .ok t ∧ |t - e.time| * 86400 ≤ 0.875 + 0.056 * (delta * 86400) := by
  obtain ⟨circ, hs⟩ : ∃ circ, (e.season, circ) ∈ seasonAngle := by
    have d : ∀ e ∈ publishedEvents, e.season = "spring" ∨ e.season = "summer" ∨ e.season = "autumn" ∨
      e.season = "winter" := by decide +kernel
    rcases d e he with h | h | h | h <;> rw [h] <;> simp [seasonAngle]
  obtain ⟨x, ex, xd⟩ := published_event e he circ hs
  have m := published_era e he
  have h' : |(jd : ℝ) - (e.time : ℚ)| ≤ 149 := by exact_mod_cast h
  have mj : |millennia jd| ≤ 5.9 := by
    rw [show millennia jd = millennia (e.time : ℚ) + (jd - (e.time : ℚ)) / 365250 by unfold millennia; ring]
    refine (abs_add_le _ _).trans ?_
    rw [abs_div, abs_of_pos (by norm_num : (0 : ℝ) < 365250)]
    have : |(jd : ℝ) - (e.time : ℚ)| / 365250 ≤ 1 := by rw [div_le_iff₀ (by norm_num)]; linarith
    norm_num; linarith
  have xj : |x - jd| ≤ 150 := by
    have := abs_sub_le x (e.time : ℚ) jd
    rw [abs_sub_comm ((e.time : ℚ) : ℝ) jd] at this
    norm_num at xd; linarith
  obtain ⟨t, s, ht, -, tx, -, -⟩ := equinox_float_nearest hf hl jd mj e.season circ x hs ex xj delta hd
  refine ⟨t, ht, ?_⟩
  have := abs_sub_le (t : ℝ) x (e.time : ℚ)
  have r : |(t : ℝ) - (e.time : ℚ)| * 86400 ≤ 0.875 + 0.056 * (delta * 86400) := by
    norm_num at xd tx ⊢; linarith
  have r2 : ((|t - e.time| * 86400 : ℚ) : ℝ) ≤ ((0.875 + 0.056 * (delta * 86400) : ℚ) : ℝ) := by
    push_cast
    exact r
  exact_mod_cast r2

/-- C90: the computation of the test, in binary64: `equinox` from `equinox_approx` to one second. The
result is within one second of the published time (the test allows thirteen). -/
theorem equinox_published_one_second {fl : ℚ → ℚ} (hf : FloatLike fl) {lib : NumLib} (hl : lib.Good fl 64)
    {cosM : ℚ → ℚ} (hc : CosLike cosM) {sumP : List ℚ → ℚ} (hp : PySumLike sumP)
    (e : PublishedEvent) (he : e ∈ publishedEvents) :
    ∃ A t, equinoxApproxF fl cosM sumP seasonNames e.year e.season = .ok A ∧
      equinoxF fl lib A e.season (fl (1 / 86400)) = .ok t ∧ |t - e.time| * 86400 < 1 := by
  have d : ∀ e ∈ publishedEvents, e.season = "spring" ∨ e.season = "summer" ∨ e.season = "autumn" ∨
    e.season = "winter" := by decide +kernel
  have dd : ∀ e ∈ publishedEvents, 1900 ≤ e.year ∧ e.year ≤ 2100 ∧ 20 ≤ e.day ∧ e.day ≤ 23 ∧
      0 ≤ 3600 * e.hour + 60 * e.minute + e.second ∧ 3600 * e.hour + 60 * e.minute + e.second ≤ 86400 := by
    decide +kernel
  obtain ⟨d1, d2, d3, d4, d5, d6⟩ := dd e he
  have hn : e.season ∈ seasonNames := by
    rcases d e he with h | h | h | h <;> rw [h] <;> decide
  obtain ⟨A, a, hA, ha, n⟩ := equinox_approx_float hf hc hp e.year (by omega) e.season hn
  -- the approximation is within a week of the published time
  have near : |(A : ℝ) - (e.time : ℚ)| ≤ 149 := by
    obtain ⟨r, hr, rs, r1, r2⟩ : ∃ r ∈ seasonDates, r.1 = e.season ∧ r.2.1 = seasonMonth e.season ∧
        r.2.2.2.1 = seasonMonth e.season := by
      rcases d e he with h | h | h | h <;> rw [h] <;> simp [seasonDates, seasonMonth]
    have rd : ∀ r ∈ seasonDates, 19 ≤ r.2.2.1 ∧ r.2.2.2.2 ≤ 25 := by decide
    obtain ⟨t, ht, t1, t2⟩ := equinox_approx_date e.year (by omega) r hr
    rw [rs, ha, Except.ok.injEq] at ht
    subst ht
    rw [r1] at t1
    rw [r2] at t2
    unfold PublishedEvent.time
    unfold jd0 at t1 t2 ⊢
    rw [jdn_add] at t1 t2 ⊢
    generalize jdn true e.year (seasonMonth e.season) 0 = j at *
    generalize 3600 * e.hour + 60 * e.minute + e.second = s at *
    have b1 : (19 : ℝ) ≤ r.2.2.1 := by exact_mod_cast (rd r hr).1
    have b2 : (r.2.2.2.2 : ℝ) ≤ 25 := by exact_mod_cast (rd r hr).2
    have b3 : (20 : ℝ) ≤ e.day := by exact_mod_cast d3
    have b4 : (e.day : ℝ) ≤ 23 := by exact_mod_cast d4
    have b5 : (0 : ℝ) ≤ s := by exact_mod_cast d5
    have b6 : (s : ℝ) ≤ 86400 := by exact_mod_cast d6
    push_cast at t1 t2 ⊢
    obtain ⟨n1, n2⟩ := abs_le.1 n
    rw [abs_le]
    norm_num at n1 n2
    constructor <;> linarith
  have near' : |A - e.time| ≤ 149 := by exact_mod_cast near
  have fe := abs_le.1 (hf.err (1 / 86400))
  obtain ⟨t, ht, tt⟩ := equinox_meets_published_float hf hl e he A near' (fl (1 / 86400)) (by
    have := fe.1
    rw [abs_of_pos (by norm_num)] at this
    have e1 : (1 : ℚ) / 2 ^ 1074 ≤ 1 / 2 ^ 53 := by gcongr <;> norm_num
    norm_num at this e1 ⊢; linarith)
  refine ⟨A, t, hA, ht, lt_of_le_of_lt tt ?_⟩
  have := fe.2
  rw [abs_of_pos (by norm_num)] at this
  have e1 : (1 : ℚ) / 2 ^ 1074 ≤ 1 / 2 ^ 53 := by gcongr <;> norm_num
  generalize fl (1 / 86400) = f at *
  norm_num at this e1 ⊢; linarith

/-- The table is not empty: the spring of 2000 begins on 20 March at 7:36:19. -/
example : (⟨2000, "spring", 20, 7, 36, 19⟩ : PublishedEvent) ∈ publishedEvents ∧ publishedEvents.length = 41 := by
  simp [publishedEvents]

example : PublishedEvent.time ⟨2000, "spring", 20, 7, 36, 19⟩ = 2451623.5 + 27379 / 86400 := by
  unfold PublishedEvent.time jd0
  rw [jdnClosed_eq _ _ _ (by decide)]
  norm_num [jdnClosed, seasonMonth]

end Verif

import Verif.Props.EquinoxYear
import Verif.Props.FloatApprox
import Verif.Lemmas.EqAll

/-!
# C89: the accuracy of `equinox_approx`

The docstring (`equinox.py` 96-97): "Within that range the error from the precise instant is at most
2.16 minutes." Real arithmetic; the precise instant is where the apparent longitude of the Sun, from the
full VSOP87 and nutation tables of the package, has the value of the season.
-/

namespace Verif
open Real

/-- The value of `equinox_approx`. -/
theorem equinoxApprox_eq (y : ℤ) (h : -1000 ≤ y ∧ y ≤ 3000) (season : String) (hs : season ∈ seasonNames) :
    equinoxApprox seasonNames y season =
      .ok ((apN season y : ℝ) / 10 ^ 17 + equinoxCorrection ((apN season y : ℝ) / 10 ^ 17)) := by
  have r : (-1000 : ℚ) ≤ y ∧ (y : ℚ) ≤ 3000 := by exact_mod_cast h
  have t : trunc (y : ℚ) = y := by unfold trunc; split_ifs <;> simp
  unfold equinoxApprox
  rw [if_neg (not_not.mpr r), if_neg (not_not.mpr hs), t, equinoxPoly_eq y h.1 season hs]
  rfl

/-- The event near a result, with room for rounding errors. -/
theorem approx_event (y : ℤ) (h : -1000 ≤ y ∧ y ≤ 3000) (season : String) (circ : ℝ)
    (hs : (season, circ) ∈ seasonAngle) :
    ∃ a x, equinoxApprox seasonNames y season = .ok a ∧ IsEvent circ x ∧ |x - a| ≤ 0.001499995 ∧
      (1000 < y → |x - a| ≤ 0.001249995) ∧ ∀ x', IsEvent circ x' → |x' - a| ≤ 340 → x' = x := by
  obtain ⟨-, h0, h1⟩ := seasonAngle_circle hs
  have hn : season ∈ seasonNames ∧ ∃ i : ℤ, HasEvent season i y (if y ≤ 1000 then 0.001499995 else 0.001249995) ∧
      circ = i * (π / 2) := by
    simp only [seasonAngle, List.mem_cons, List.not_mem_nil, or_false, Prod.mk.injEq] at hs
    rcases hs with ⟨rfl, rfl⟩ | ⟨rfl, rfl⟩ | ⟨rfl, rfl⟩ | ⟨rfl, rfl⟩
    · exact ⟨by decide, 0, eventSpring h, by unfold deg; push_cast; ring⟩
    · exact ⟨by decide, 1, eventSummer h, by unfold deg; push_cast; ring⟩
    · exact ⟨by decide, 2, eventAutumn h, by unfold deg; push_cast; ring⟩
    · exact ⟨by decide, 3, eventWinter h, by unfold deg; push_cast; ring⟩
  obtain ⟨hn, i, ⟨hm, x, xa, xv⟩, ec⟩ := hn
  have ha := equinoxApprox_eq y h season hn
  generalize (apN season y : ℝ) / 10 ^ 17 + equinoxCorrection ((apN season y : ℝ) / 10 ^ 17) = a at *
  have ex : IsEvent circ x := by
    rw [isEvent_iff h0 h1, xv]
    refine ⟨y - 1999, ?_⟩
    rw [ec]; push_cast; ring
  have x15 : |x - a| ≤ 0.001499995 := by
    split_ifs at xa
    · exact xa
    · exact xa.trans (by norm_num)
  refine ⟨a, x, ha, ex, ?_, ?_, ?_⟩
  · exact x15
  · intro hy
    rwa [if_neg (by omega)] at xa
  · intro x' ex' n'
    by_contra ne
    have e1 : millennia x' = millennia a + (x' - a) / 365250 := by unfold millennia; ring
    have m' : |millennia x'| ≤ 6 := by
      rw [e1]
      refine (abs_add_le _ _).trans ?_
      rw [abs_div, abs_of_pos (by norm_num : (0 : ℝ) < 365250)]
      have : |x' - a| / 365250 ≤ 0.01 := by rw [div_le_iff₀ (by norm_num)]; norm_num; linarith
      norm_num at hm this ⊢; linarith
    have := events_apart circ x' x h0 h1 m' (millennia_near hm (by norm_num at x15 ⊢; linarith)) ex' ex ne
    have t := abs_sub_le x' a x
    rw [abs_sub_comm a x] at t
    norm_num at x15; linarith

/-- C89: for every year from -1000 to 3000 and every season, the result of `equinox_approx` is within
2.16 minutes of an event, and within 1.8 minutes after the year 1000. There is no other event within
340 days. -/
theorem equinox_approx_accuracy (y : ℤ) (h : -1000 ≤ y ∧ y ≤ 3000) (season : String) (circ : ℝ)
    (hs : (season, circ) ∈ seasonAngle) :
    ∃ a x, equinoxApprox seasonNames y season = .ok a ∧ IsEvent circ x ∧ |x - a| * 1440 ≤ 2.16 ∧
      (1000 < y → |x - a| * 1440 ≤ 1.8) ∧ ∀ x', IsEvent circ x' → |x' - a| ≤ 340 → x' = x := by
  obtain ⟨a, x, ha, ex, xa, xl, un⟩ := approx_event y h season circ hs
  refine ⟨a, x, ha, ex, ?_, fun hy => ?_, un⟩
  · norm_num at xa ⊢; linarith
  · have := xl hy
    norm_num at this ⊢; linarith

/-- C89: against the function `equinox` started at the result, for any precision down to `1e-20` day;
also for a fractional year. -/
theorem equinox_approx_against_equinox (yr : ℚ) (h : -1000 ≤ yr ∧ yr ≤ 3000) (season : String) (circ : ℝ)
    (hs : (season, circ) ∈ seasonAngle) (delta : ℝ) (hd : 1e-20 ≤ delta) :
    ∃ a t, equinoxApprox seasonNames yr season = .ok a ∧ equinox a season delta = .ok t ∧
      |t - a| ≤ 2.16 / 1440 + 0.056 * delta := by
  rw [equinox_approx_fractional yr season h]
  have r : -1000 ≤ trunc yr ∧ trunc yr ≤ 3000 := by
    unfold trunc
    split_ifs with c
    · have : (0 : ℤ) ≤ ⌊yr⌋ := Int.floor_nonneg.mpr c
      exact ⟨by omega, by exact_mod_cast (Int.floor_le yr).trans h.2⟩
    · have : ⌈yr⌉ ≤ (0 : ℤ) := Int.ceil_le.mpr (by push_cast; linarith)
      exact ⟨by exact_mod_cast h.1.trans (Int.le_ceil yr), by omega⟩
  obtain ⟨a, x, ha, ex, xa, -, -⟩ := equinox_approx_accuracy _ r season circ hs
  obtain ⟨a', x', ha', -, -, un, ht⟩ := equinox_of_approx _ r season circ hs
  rw [ha, Except.ok.injEq] at ha'
  subst ha'
  have xa' : |x - a| ≤ 2.16 / 1440 := by rw [le_div_iff₀ (by norm_num)]; exact xa
  have e := un x ex (xa'.trans (by norm_num))
  subst e
  obtain ⟨t, t1, t2⟩ := ht delta hd
  refine ⟨a, t, ha, t1, ?_⟩
  have := abs_sub_le t x a
  linarith

/-- C89: the result of `equinox_approx` computed with floats is within 2.16 minutes of the event, too, and
within 1.8 minutes after the year 1000. -/
theorem equinox_approx_accuracy_float {fl : ℚ → ℚ} (hf : FloatLike fl) {cosM : ℚ → ℚ} (hc : CosLike cosM)
    {sumP : List ℚ → ℚ} (hp : PySumLike sumP) (y : ℤ) (h : -1000 ≤ y ∧ y ≤ 3000) (season : String) (circ : ℝ)
    (hs : (season, circ) ∈ seasonAngle) :
    ∃ (A : ℚ) (x : ℝ), equinoxApproxF fl cosM sumP seasonNames y season = .ok A ∧ IsEvent circ x ∧
      |x - A| * 1440 ≤ 2.16 ∧ (1000 < y → |x - A| * 1440 ≤ 1.8) ∧
      ∀ x', IsEvent circ x' → |x' - A| ≤ 339 → x' = x := by
  obtain ⟨a, x, ha, ex, xa, xl, un⟩ := approx_event y h season circ hs
  have hn : season ∈ seasonNames := by
    simp only [seasonAngle, List.mem_cons, List.not_mem_nil, or_false, Prod.mk.injEq] at hs
    rcases hs with ⟨rfl, -⟩ | ⟨rfl, -⟩ | ⟨rfl, -⟩ | ⟨rfl, -⟩ <;> decide
  obtain ⟨A, a', hA, ha', n⟩ := equinox_approx_float hf hc hp y h season hn
  rw [ha, Except.ok.injEq] at ha'
  subst ha'
  have t := abs_sub_le x a A
  rw [abs_sub_comm a (A : ℝ)] at t
  refine ⟨A, x, hA, ex, ?_, fun hy => ?_, fun x' ex' n' => un x' ex' ?_⟩
  · norm_num at xa n ⊢; linarith
  · have := xl hy
    norm_num at this n ⊢; linarith
  · have := abs_sub_le x' A a
    norm_num at n; linarith

/-- The longest day of the year -408, which has the largest error, and the spring equinox of 2000. -/
example : (-1000 : ℤ) ≤ -408 ∧ (-408 : ℤ) ≤ 3000 ∧ ("summer", deg 90) ∈ seasonAngle ∧
    (1000 : ℤ) < 2000 ∧ ("spring", deg 0) ∈ seasonAngle := by
  simp [seasonAngle]

end Verif

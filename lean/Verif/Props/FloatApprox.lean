import Verif.Lemmas.FloatApprox
import Verif.Props.FloatEquinox

/-!
# C77: `equinox_approx`, and `equinox` started from it, in binary64
-/

namespace Verif
open Real

/-- C77: the rounding error of `equinox_approx` is at most `2e-9` day (0.2 milliseconds), for every year
and season. -/
theorem equinox_approx_float {fl : ℚ → ℚ} (hf : FloatLike fl) {cosM : ℚ → ℚ} (hc : CosLike cosM)
    {sumP : List ℚ → ℚ} (hs : PySumLike sumP) (y : ℤ) (h : -1000 ≤ y ∧ y ≤ 3000) (season : String)
    (hn : season ∈ ["spring", "summer", "autumn", "winter"]) :
    ∃ (A : ℚ) (a : ℝ), equinoxApproxF fl cosM sumP seasonNames y season = .ok A ∧
      equinoxApprox seasonNames y season = .ok a ∧ |(A : ℝ) - a| ≤ 2e-9 :=
  equinoxApproxF_near hf hc hs y h season hn

/-- C77: the arguments which are refused, and the error raised, are those of C47. -/
theorem equinox_approx_float_refuses (fl cosM : ℚ → ℚ) (sumP : List ℚ → ℚ) (names : List String) (yr : ℚ)
    (season : String) (e : PyErr) :
    equinoxApproxF fl cosM sumP names yr season = .error e ↔ equinoxApprox names yr season = .error e := by
  unfold equinoxApproxF equinoxApprox
  by_cases h1 : ¬ (-1000 ≤ yr ∧ yr ≤ 3000)
  · rw [if_pos h1, if_pos h1]; simp
  rw [if_neg h1, if_neg h1]
  by_cases h2 : season ∉ names
  · rw [if_pos h2, if_pos h2]; simp
  rw [if_neg h2, if_neg h2]
  unfold equinoxPolyF equinoxPoly
  by_cases hy : -1000 ≤ trunc yr ∧ trunc yr ≤ 1000
  · simp only [hy, and_self, if_true]
    cases Data.approx1000.lookup season <;> simp [bind, Except.bind]
  · simp only [if_neg hy]
    cases Data.approx3000.lookup season <;> simp [bind, Except.bind]

/-- C77: a fractional year stands for the integer part. -/
theorem equinox_approx_float_fractional (fl cosM : ℚ → ℚ) (sumP : List ℚ → ℚ) (yr : ℚ) (season : String)
    (h : -1000 ≤ yr ∧ yr ≤ 3000) :
    equinoxApproxF fl cosM sumP seasonNames yr season =
      equinoxApproxF fl cosM sumP seasonNames (trunc yr : ℤ) season := by
  have t : trunc ((trunc yr : ℤ) : ℚ) = trunc yr := by
    generalize trunc yr = z
    unfold trunc; split_ifs <;> simp
  have r : -1000 ≤ ((trunc yr : ℤ) : ℚ) ∧ ((trunc yr : ℤ) : ℚ) ≤ 3000 := by
    unfold trunc
    split_ifs with h0
    · constructor
      · exact_mod_cast Int.le_floor.mpr (by push_cast; linarith [h.1])
      · exact (Int.floor_le _).trans h.2
    · constructor
      · exact h.1.trans (Int.le_ceil _)
      · exact_mod_cast Int.ceil_le.mpr (by push_cast; linarith [h.2])
  unfold equinoxApproxF
  rw [if_neg (not_not.mpr h), if_neg (not_not.mpr r), t]

/-- C77: for every year from -1000 to 3000 and every season, `equinox` started at the result of
`equinox_approx`, both in binary64, returns for every precision of at least `1e-7` day a time within
0.056 of the precision plus 4 milliseconds of an event.  The event is the only one within 339 days of
the approximation, and is the one which the code finds in real arithmetic. -/
theorem equinox_year_float {fl : ℚ → ℚ} (hf : FloatLike fl) {lib : NumLib} (hl : lib.Good fl 64) {cosM : ℚ → ℚ}
    (hc : CosLike cosM) {sumP : List ℚ → ℚ} (hp : PySumLike sumP) (y : ℤ) (h : -1000 ≤ y ∧ y ≤ 3000)
    (season : String) (circ : ℝ) (hs : (season, circ) ∈ seasonAngle) :
    ∃ (A : ℚ) (a x : ℝ), equinoxApproxF fl cosM sumP seasonNames y season = .ok A ∧
      equinoxApprox seasonNames y season = .ok a ∧ IsEvent circ x ∧ |x - A| ≤ 5.2 ∧
      (∀ x', IsEvent circ x' → |x' - A| ≤ 339 → x' = x) ∧
      ∀ delta : ℚ, 1e-7 ≤ delta → ∃ (t : ℚ) (s : ℝ), equinoxF fl lib A season delta = .ok t ∧
        equinox a season delta = .ok s ∧ |(t : ℝ) - x| ≤ 0.056 * delta + 4.6e-8 ∧
        |(t : ℝ) - s| ≤ 0.112 * delta + 4.6e-8 := by
  have hn : season ∈ seasonNames := by
    simp only [seasonAngle, List.mem_cons, List.not_mem_nil, or_false, Prod.mk.injEq] at hs
    rcases hs with ⟨rfl, -⟩ | ⟨rfl, -⟩ | ⟨rfl, -⟩ | ⟨rfl, -⟩ <;> decide
  obtain ⟨A, a, eA, ea, nA⟩ := equinoxApproxF_near hf hc hp y h season hn
  obtain ⟨a', x, e1, ex, x1, xu, xt⟩ := equinox_of_approx y h season circ hs
  rw [ea, Except.ok.injEq] at e1
  subst e1
  obtain ⟨a', e2, m3, -⟩ := sunLambda_approx y h season circ hs
  rw [ea, Except.ok.injEq] at e2
  subst e2
  unfold Near at nA
  have x2 : |x - A| ≤ 5.2 := by
    have := abs_sub_le x a A
    rw [abs_sub_comm a] at this
    norm_num at this nA x1 ⊢; linarith
  have m59 : |millennia (A : ℝ)| ≤ 5.9 := by
    have e : millennia (A : ℝ) = millennia a + (A - a) / 365250 := by unfold millennia; ring
    rw [e]
    refine (abs_add_le _ _).trans ?_
    rw [abs_div, abs_of_pos (by norm_num : (0 : ℝ) < 365250)]
    have : |(A : ℝ) - a| / 365250 ≤ 1 := by rw [div_le_iff₀ (by norm_num)]; norm_num at nA ⊢; linarith
    norm_num at m3 this ⊢; linarith
  refine ⟨A, a, x, eA, ea, ex, x2, ?_, ?_⟩
  · intro x' ex' hx'
    refine xu x' ex' ?_
    have := abs_sub_le x' A a
    norm_num at nA; linarith
  · intro delta hd
    obtain ⟨t, -, t1, -, t2, -, -⟩ := equinox_float_nearest hf hl A m59 season circ x hs ex (by norm_num at x2; linarith) delta hd
    have hd' : (1e-7 : ℝ) ≤ delta := by have := (Rat.cast_le (K := ℝ)).mpr hd; push_cast at this; exact this
    obtain ⟨s, s1, s2⟩ := xt delta (le_trans (by norm_num) hd')
    refine ⟨t, s, t1, s1, t2, ?_⟩
    have := abs_sub_le (t : ℝ) x s
    rw [abs_sub_comm x s] at this
    linarith

/-- C77: with a precision between `1e-7` and one day the four events of a year, computed in binary64,
are in order, 77 to 105 days apart. -/
theorem equinox_seasons_float {fl : ℚ → ℚ} (hf : FloatLike fl) {lib : NumLib} (hl : lib.Good fl 64) {cosM : ℚ → ℚ}
    (hc : CosLike cosM) {sumP : List ℚ → ℚ} (hp : PySumLike sumP) (y : ℤ) (h : -1000 ≤ y ∧ y ≤ 3000)
    (delta : ℚ) (hd : 1e-7 ≤ delta) (h1 : delta ≤ 1) :
    ∃ a b c d t1 t2 t3 t4 : ℚ,
      equinoxApproxF fl cosM sumP seasonNames y "spring" = .ok a ∧ equinoxF fl lib a "spring" delta = .ok t1 ∧
      equinoxApproxF fl cosM sumP seasonNames y "summer" = .ok b ∧ equinoxF fl lib b "summer" delta = .ok t2 ∧
      equinoxApproxF fl cosM sumP seasonNames y "autumn" = .ok c ∧ equinoxF fl lib c "autumn" delta = .ok t3 ∧
      equinoxApproxF fl cosM sumP seasonNames y "winter" = .ok d ∧ equinoxF fl lib d "winter" delta = .ok t4 ∧
      (77 < t2 - t1 ∧ t2 - t1 < 105) ∧ (77 < t3 - t2 ∧ t3 - t2 < 105) ∧ (77 < t4 - t3 ∧ t4 - t3 < 105) := by
  obtain ⟨a, b, c, d, ha, hb, hc', hd', o1, o2, o3, -⟩ := equinox_approx_order y h
  have key : ∀ {season : String} {circ v : ℝ}, (season, circ) ∈ seasonAngle →
      equinoxApprox seasonNames y season = .ok v → ∃ A t : ℚ,
        equinoxApproxF fl cosM sumP seasonNames y season = .ok A ∧ equinoxF fl lib A season delta = .ok t ∧
        |(t : ℝ) - v| ≤ 5.3 := by
    intro season circ v hs hv
    obtain ⟨A, w, x, hA, hw, -, hx, -, ht⟩ := equinox_year_float hf hl hc hp y h season circ hs
    rw [hv, Except.ok.injEq] at hw
    subst hw
    obtain ⟨t, s, t1, -, t2, -⟩ := ht delta hd
    obtain ⟨A', v', hA', hv', nA⟩ := equinoxApproxF_near hf hc hp y h season (by
      simp only [seasonAngle, List.mem_cons, List.not_mem_nil, or_false, Prod.mk.injEq] at hs
      rcases hs with ⟨rfl, -⟩ | ⟨rfl, -⟩ | ⟨rfl, -⟩ | ⟨rfl, -⟩ <;> decide)
    rw [hA, Except.ok.injEq] at hA'
    rw [hv, Except.ok.injEq] at hv'
    subst hA' hv'
    refine ⟨A, t, hA, t1, ?_⟩
    have h1' : (delta : ℝ) ≤ 1 := by exact_mod_cast h1
    have := abs_sub_le (t : ℝ) x v
    have := abs_sub_le x A v
    unfold Near at nA
    norm_num at t2 hx nA ⊢; linarith
  obtain ⟨A, t1, eA, e1, n1⟩ := key (circ := deg 0) (by simp [seasonAngle]) ha
  obtain ⟨B, t2, eB, e2, n2⟩ := key (circ := deg 90) (by simp [seasonAngle]) hb
  obtain ⟨C, t3, eC, e3, n3⟩ := key (circ := deg 180) (by simp [seasonAngle]) hc'
  obtain ⟨D, t4, eD, e4, n4⟩ := key (circ := deg 270) (by simp [seasonAngle]) hd'
  refine ⟨A, B, C, D, t1, t2, t3, t4, eA, e1, eB, e2, eC, e3, eD, e4, ?_⟩
  have fin : (77 < (t2 : ℝ) - t1 ∧ (t2 : ℝ) - t1 < 105) ∧ (77 < (t3 : ℝ) - t2 ∧ (t3 : ℝ) - t2 < 105) ∧
      (77 < (t4 : ℝ) - t3 ∧ (t4 : ℝ) - t3 < 105) := by
    rw [abs_le] at n1 n2 n3 n4
    norm_num at o1 o2 o3 n1 n2 n3 n4
    refine ⟨⟨?_, ?_⟩, ⟨?_, ?_⟩, ⟨?_, ?_⟩⟩ <;> linarith [o1.1, o1.2, o2.1, o2.2, o3.1, o3.2, n1.1, n1.2,
      n2.1, n2.2, n3.1, n3.2, n4.1, n4.2]
  exact_mod_cast fin

/-- Adding up one after the other, as Python did before version 3.12, meets the assumption. -/
theorem pySumLike_foldl {fl : ℚ → ℚ} (hf : FloatLike fl) :
    PySumLike fun l => l.foldl (fun a b => fl (a + b)) 0 := by
  intro l hl
  have f := foldl_flSum fl l 0 0 [] (.nil 0)
  simp only [zero_add, List.nil_append] at f
  have e := f.err hf (by
    have : ((l.length : ℕ) : ℚ) ≤ 100 := by exact_mod_cast hl
    rw [show uu = 1 / 2 ^ 53 from rfl]; norm_num; linarith)
  refine e.trans (le_of_eq ?_)
  rw [show uu = 1 / 2 ^ 53 from rfl, show ww = 1 / 10 ^ 30 from rfl]
  ring

/-- Exact addition (which the compensated sum of later versions approximates) meets it too. -/
example : PySumLike List.sum := by
  intro l _
  rw [sub_self, abs_zero]
  have : 0 ≤ (l.map fun x => |x| + (1 : ℚ) / 10 ^ 30).sum := by
    apply List.sum_nonneg
    intro y hy
    obtain ⟨x, -, rfl⟩ := List.mem_map.mp hy
    positivity
  positivity

example : (-1000 : ℤ) ≤ 1962 ∧ (1962 : ℤ) ≤ 3000 ∧ ("summer", deg 90) ∈ seasonAngle ∧ (1e-7 : ℚ) ≤ 1 / 86400 := by
  simp [seasonAngle]; norm_num

end Verif

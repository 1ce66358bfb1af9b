import Verif.Props.Equinox

/-!
# C64: the four events of a year

`equinox` started with the result of `equinox_approx`, as in `apps/solstice.py`, `apps/cronus.py` and
the example of the documentation.
-/

namespace Verif
open Real

/-- The longitude of the Sun against its mean longitude, for 3000 years. -/
theorem sunLambda_mean {jd : ℝ} (h : |millennia jd| ≤ 3) :
    |sunLambda jd - (175347045673 / 10 ^ 11 + 628331966747491 / 10 ^ 11 * millennia jd + π)| ≤
      0.047 := by
  have h6 : |millennia jd| ≤ 6 := by linarith
  have hT : |centuries jd| ≤ 30 := by
    have : centuries jd = 10 * millennia jd := jcent_eq_millennia jd
    rw [this, abs_mul, abs_of_pos (by norm_num : (0 : ℝ) < 10)]; linarith
  obtain ⟨-, -, -, r1, -, b1⟩ := earth6 _ _ h6 h6
  have n := (nutation_small jd hT).1
  have hL : |poisson Data.earthL (millennia jd) - (175347045673 / 10 ^ 11 +
      628331966747491 / 10 ^ 11 * millennia jd)| ≤ 0.0463 := by
    rw [poisson_eq_pval, pval_head0 (a := 175347045673) (by decide +kernel),
      pval_head1 (c := tail0 Data.earthL) (a := 628331966747491) (by decide +kernel)]
    push_cast
    rw [show ∀ a b c : ℝ, a + (b + c) - (a + b) = c by intros; ring]
    have h3 : |millennia jd| ≤ ((3 : ℕ) : ℝ) := by push_cast; exact h
    refine (pval_abs _ h3).trans ?_
    have k : pAmpl 3 (tail1 (tail0 Data.earthL)) ≤ 4630000000 := by decide +kernel
    have : (pAmpl 3 (tail1 (tail0 Data.earthL)) : ℝ) ≤ (4630000000 : ℕ) := by exact_mod_cast k
    rw [div_le_iff₀ (by positivity)]
    exact this.trans (by norm_num)
  have ab : |aberrationLow (poisson Data.earthR (millennia jd))| ≤ arcsec 22 := by
    have r0 : 0 < poisson Data.earthR (millennia jd) := by norm_num at r1; linarith
    rw [(aberration_low_value _ r0).1, abs_neg, abs_arcsec, arcsec_le, abs_div, abs_of_pos r0,
      abs_of_pos (by norm_num : (0 : ℝ) < 20.4898), div_le_iff₀ r0]
    norm_num at r1 ⊢; linarith
  have fk : |fkDelta jd (sunApp jd) (-poisson Data.earthB (millennia jd))| ≤ arcsec 1 := by
    unfold fkDelta
    generalize poisson Data.earthB (millennia jd) = B at *
    generalize fkArg jd (sunApp jd) = u
    have tz : |tan (-B)| ≤ 1 := by
      have := tan_lip (b := -B) (c := 0) (by rw [abs_neg]; norm_num at b1 ⊢; linarith) (by norm_num)
      rw [tan_zero, sub_zero, sub_zero, abs_neg] at this
      norm_num at this b1 ⊢; linarith
    have c2 : |cos u + sin u| ≤ 2 := by
      refine (abs_add_le _ _).trans ?_
      linarith [abs_cos_le_one u, abs_sin_le_one u]
    refine (abs_add_le _ _).trans ?_
    rw [fk2_eq, fk3_eq, abs_mul, abs_mul, abs_arcsec, abs_arcsec]
    have a0 : 0 ≤ arcsec |0.03916| := by unfold arcsec; positivity
    have q : arcsec |0.03916| * |cos u + sin u| * |tan (-B)| ≤ arcsec |0.03916| * 2 * 1 :=
      mul_le_mul (mul_le_mul_of_nonneg_left c2 a0) tz (abs_nonneg _) (by positivity)
    refine (add_le_add le_rfl q).trans ?_
    rw [show arcsec |(-0.09033 : ℝ)| + arcsec |(0.03916 : ℝ)| * 2 * 1 =
      arcsec (|(-0.09033 : ℝ)| + |(0.03916 : ℝ)| * 2) by unfold arcsec; ring, arcsec_le]
    norm_num [abs_of_pos, abs_of_neg]
  have tot : arcsec 20 + arcsec 22 + arcsec 1 ≤ 0.0003 := by
    unfold arcsec
    have p := pi_small
    norm_num at p ⊢; linarith
  unfold sunLambda
  generalize fkDelta jd (sunApp jd) (-poisson Data.earthB (millennia jd)) = f at *
  unfold sunApp
  rw [show ∀ a p n b f c : ℝ, a + p + (n + b) + f - (c + p) = (a - c) + (n + b + f) by intros; ring]
  refine (abs_add_le _ _).trans ?_
  have t1 := abs_add_le (nutationInLongitude jd + aberrationLow (poisson Data.earthR (millennia jd))) f
  have t2 := abs_add_le (nutationInLongitude jd) (aberrationLow (poisson Data.earthR (millennia jd)))
  generalize nutationInLongitude jd = n' at *
  generalize aberrationLow (poisson Data.earthR (millennia jd)) = a' at *
  norm_num at tot hL ⊢
  linarith

theorem mean_check : allYears (fun y => (["spring", "summer", "autumn", "winter"].zipIdx.all fun r =>
    decide (|2 * 10 ^ 9 * (175347045673 * (365250 * 10 ^ 17) + 628331966747491 *
        (apN r.1 y - 2451545 * 10 ^ 17)) -
      ((r.2 : ℤ) + 4 * (y - 1999) - 2) * 314159265358979323846 * (365250 * 10 ^ 17)| ≤
      35 * 10 ^ 8 * (365250 * 10 ^ 17) * (2 * 10 ^ 9) ∧
      |apN r.1 y - 2451545 * 10 ^ 17| ≤ 1095677 * 10 ^ 17))) = true := by
  decide +kernel

/-- At the approximate time, the longitude is within 0.083 of the angle of the season. -/
theorem sunLambda_approx (y : ℤ) (h : -1000 ≤ y ∧ y ≤ 3000) (season : String) (circ : ℝ)
    (hs : (season, circ) ∈ seasonAngle) :
    ∃ a, equinoxApprox seasonNames y season = .ok a ∧ |millennia a| ≤ 3 ∧
      ∃ v, Congr (2 * π) v circ ∧ |v - sunLambda a| ≤ 0.083 := by
  have hn : season ∈ seasonNames ∧ ∃ i : ℕ, (season, i) ∈ ["spring", "summer", "autumn", "winter"].zipIdx ∧
      circ = i * (π / 2) := by
    simp only [seasonAngle, List.mem_cons, List.not_mem_nil, or_false, Prod.mk.injEq] at hs
    rcases hs with ⟨rfl, rfl⟩ | ⟨rfl, rfl⟩ | ⟨rfl, rfl⟩ | ⟨rfl, rfl⟩
    · exact ⟨by decide, 0, by decide, by unfold deg; push_cast; ring⟩
    · exact ⟨by decide, 1, by decide, by unfold deg; push_cast; ring⟩
    · exact ⟨by decide, 2, by decide, by unfold deg; push_cast; ring⟩
    · exact ⟨by decide, 3, by decide, by unfold deg; push_cast; ring⟩
  obtain ⟨hn, i, hi, ec⟩ := hn
  obtain ⟨a, ha, na⟩ := equinoxApprox_near y h season hn
  have c := allYears_spec mean_check y h
  rw [List.all_eq_true] at c
  have c := c _ hi
  simp only [decide_eq_true_eq] at c
  obtain ⟨c, cm⟩ := c
  have cmR : |(apN season y : ℝ) - 2451545 * 10 ^ 17| ≤ 1095677 * 10 ^ 17 := by exact_mod_cast cm
  have i4 : (i : ℤ) ≤ 3 := by
    have : ∀ r ∈ ["spring", "summer", "autumn", "winter"].zipIdx, r.2 ≤ 3 := by decide
    exact_mod_cast this _ hi
  have cR : |(2 * 10 ^ 9 * (175347045673 * (365250 * 10 ^ 17) + 628331966747491 *
        (apN season y - 2451545 * 10 ^ 17)) -
      ((i : ℝ) + 4 * (y - 1999) - 2) * 314159265358979323846 * (365250 * 10 ^ 17))| ≤
      35 * 10 ^ 8 * (365250 * 10 ^ 17) * (2 * 10 ^ 9) := by exact_mod_cast c
  -- number of right angles
  have hh : |(i : ℝ) + 4 * (y - 1999) - 2| ≤ 20000 := by
    have y1 : (-1000 : ℝ) ≤ y := by exact_mod_cast h.1
    have y2 : (y : ℝ) ≤ 3000 := by exact_mod_cast h.2
    have i1 : (i : ℝ) ≤ 3 := by exact_mod_cast i4
    have i0 : (0 : ℝ) ≤ i := Nat.cast_nonneg _
    rw [abs_le]; constructor <;> linarith
  generalize hhd : (i : ℝ) + 4 * (y - 1999) - 2 = hr at *
  generalize (apN season y : ℝ) = N at *
  have p1 := Real.pi_gt_d20
  have p2 := Real.pi_lt_d20
  have mean : |175347045673 / 10 ^ 11 + 628331966747491 / 10 ^ 11 * ((N / 10 ^ 17 - 2451545) / 365250) -
      hr * (π / 2)| ≤ 0.03501 := by
    have e : 175347045673 / 10 ^ 11 + 628331966747491 / 10 ^ 11 *
        ((N / 10 ^ 17 - 2451545) / 365250) - hr * (π / 2) =
      (2 * 10 ^ 9 * (175347045673 * (365250 * 10 ^ 17) + 628331966747491 * (N - 2451545 * 10 ^ 17)) -
        hr * 314159265358979323846 * (365250 * 10 ^ 17)) / (10 ^ 11 * (365250 * 10 ^ 17) * (2 * 10 ^ 9)) +
      hr * (314159265358979323846 / 10 ^ 20 - π) / 2 := by
      field_simp; ring
    rw [e]
    refine (abs_add_le _ _).trans ?_
    have k1 : |(2 * 10 ^ 9 * (175347045673 * (365250 * 10 ^ 17) + 628331966747491 *
        (N - 2451545 * 10 ^ 17)) - hr * 314159265358979323846 * (365250 * 10 ^ 17)) /
        (10 ^ 11 * (365250 * 10 ^ 17) * (2 * 10 ^ 9))| ≤ 0.035 := by
      rw [abs_div, abs_of_pos (by positivity : (0 : ℝ) < 10 ^ 11 * (365250 * 10 ^ 17) * (2 * 10 ^ 9)),
        div_le_iff₀ (by positivity)]
      refine cR.trans (by norm_num)
    have k2 : |hr * (314159265358979323846 / 10 ^ 20 - π) / 2| ≤ 0.00001 := by
      rw [abs_div, abs_mul, abs_two]
      have q : |314159265358979323846 / 10 ^ 20 - π| ≤ 1 / 10 ^ 10 := by
        rw [abs_le]; norm_num at p1 p2 ⊢; constructor <;> linarith
      have := mul_le_mul hh q (abs_nonneg _) (by norm_num)
      norm_num at this ⊢; linarith
    norm_num at k1 k2 ⊢; linarith
  have ma : |millennia a - (N / 10 ^ 17 - 2451545) / 365250| ≤ 1e-7 := by
    have e : millennia a - (N / 10 ^ 17 - 2451545) / 365250 = (a - N / 10 ^ 17) / 365250 := by
      unfold millennia; ring
    rw [e, abs_div, abs_of_pos (by norm_num : (0 : ℝ) < 365250), div_le_iff₀ (by norm_num)]
    norm_num at na ⊢; linarith
  have hm : |millennia a| ≤ 3 := by
    have q : |(N / 10 ^ 17 - 2451545) / 365250| ≤ 2.9999 := by
      rw [show (N / 10 ^ 17 - 2451545) / 365250 = (N - 2451545 * 10 ^ 17) / (365250 * 10 ^ 17) by
        field_simp, abs_div, abs_of_pos (by positivity : (0 : ℝ) < 365250 * 10 ^ 17),
        div_le_iff₀ (by positivity)]
      exact cmR.trans (by norm_num)
    have := abs_add_le (millennia a - (N / 10 ^ 17 - 2451545) / 365250)
      ((N / 10 ^ 17 - 2451545) / 365250)
    rw [sub_add_cancel] at this
    norm_num at this q ma ⊢; linarith
  refine ⟨a, ha, hm, hr * (π / 2) + π, ?_, ?_⟩
  · refine ⟨y - 1999, ?_⟩
    rw [ec, ← hhd]; push_cast; ring
  · have l := sunLambda_mean hm
    have k : |628331966747491 / 10 ^ 11 * (millennia a - (N / 10 ^ 17 - 2451545) / 365250)| ≤ 0.00063 := by
      rw [abs_mul, abs_of_pos (by positivity : (0 : ℝ) < 628331966747491 / 10 ^ 11)]
      norm_num at ma ⊢; linarith
    have e : hr * (π / 2) + π - sunLambda a =
        -(sunLambda a - (175347045673 / 10 ^ 11 + 628331966747491 / 10 ^ 11 * millennia a + π)) -
        (175347045673 / 10 ^ 11 + 628331966747491 / 10 ^ 11 * ((N / 10 ^ 17 - 2451545) / 365250) -
          hr * (π / 2)) -
        628331966747491 / 10 ^ 11 * (millennia a - (N / 10 ^ 17 - 2451545) / 365250) := by ring
    rw [e]
    generalize sunLambda a - (175347045673 / 10 ^ 11 + 628331966747491 / 10 ^ 11 * millennia a + π) = u
      at *
    generalize 175347045673 / 10 ^ 11 + 628331966747491 / 10 ^ 11 *
      ((N / 10 ^ 17 - 2451545) / 365250) - hr * (π / 2) = v at *
    generalize 628331966747491 / 10 ^ 11 * (millennia a - (N / 10 ^ 17 - 2451545) / 365250) = w at *
    obtain ⟨l1, l2⟩ := abs_le.mp l
    obtain ⟨v1, v2⟩ := abs_le.mp mean
    obtain ⟨w1, w2⟩ := abs_le.mp k
    norm_num at l1 l2 v1 v2 w1 w2 ⊢
    rw [abs_le]; constructor <;> linarith

/-- C64: for every year from -1000 to 3000 and every season, `equinox` started at the result of
`equinox_approx` returns, for any precision down to `1e-20` day, a time within 0.056 of the precision
of an event; the event is within 5.1 days of the approximation, and is the only one within 340 days
of it. -/
theorem equinox_of_approx (y : ℤ) (h : -1000 ≤ y ∧ y ≤ 3000) (season : String) (circ : ℝ)
    (hs : (season, circ) ∈ seasonAngle) :
    ∃ a x, equinoxApprox seasonNames y season = .ok a ∧ IsEvent circ x ∧ |x - a| ≤ 5.1 ∧
      (∀ x', IsEvent circ x' → |x' - a| ≤ 340 → x' = x) ∧
      ∀ delta, 1e-20 ≤ delta → ∃ t, equinox a season delta = .ok t ∧ |t - x| ≤ 0.056 * delta := by
  obtain ⟨-, h0, h1⟩ := seasonAngle_circle hs
  obtain ⟨a, ha, hm, v, vc, vn⟩ := sunLambda_approx y h season circ hs
  have m59 : |millennia a| ≤ 5.9 := hm.trans (by norm_num)
  obtain ⟨x, x1, x2, x3⟩ := event_exists a v m59 (by
    have := Real.pi_gt_three; norm_num at vn ⊢; linarith)
  have ex : IsEvent circ x := by rw [isEvent_iff h0 h1, x2]; exact vc
  have x5 : |x - a| ≤ 5.1 := by
    refine x3.trans ?_
    rw [div_le_iff₀ (by norm_num)]
    have k : kSunMotion ≤ 58.15 := by
      rw [kSunMotion_eq, div_le_iff₀ (by positivity)]
      have := Real.pi_gt_d6
      norm_num at this ⊢; linarith
    have := mul_le_mul k vn (abs_nonneg _) (by norm_num)
    norm_num at this ⊢; linarith
  refine ⟨a, x, ha, ex, x5, ?_, ?_⟩
  · intro x' ex' n'
    by_contra ne
    have e1 : millennia x' = millennia a + (x' - a) / 365250 := by unfold millennia; ring
    have m' : |millennia x'| ≤ 6 := by
      rw [e1]
      refine (abs_add_le _ _).trans ?_
      rw [abs_div, abs_of_pos (by norm_num : (0 : ℝ) < 365250)]
      have : |x' - a| / 365250 ≤ 0.01 := by rw [div_le_iff₀ (by norm_num)]; norm_num; linarith
      norm_num at hm this ⊢; linarith
    have := events_apart circ x' x h0 h1 m' (millennia_near m59 (by linarith)) ex' ex ne
    have t := abs_sub_le x' a x
    rw [abs_sub_comm a x] at t
    norm_num at x5; linarith
  · intro delta hd
    refine equinox_nearest a m59 season circ x hs ex ?_ delta hd
    norm_num at x5; linarith

/-- C64: with a precision of at most one day, the four events of a year found in this way are in
order, 77 to 105 days apart. -/
theorem equinox_seasons_ordered (y : ℤ) (h : -1000 ≤ y ∧ y ≤ 3000) (delta : ℝ) (hd : 1e-20 ≤ delta)
    (h1 : delta ≤ 1) :
    ∃ a b c d t1 t2 t3 t4 : ℝ,
      equinoxApprox seasonNames y "spring" = .ok a ∧ equinox a "spring" delta = .ok t1 ∧
      equinoxApprox seasonNames y "summer" = .ok b ∧ equinox b "summer" delta = .ok t2 ∧
      equinoxApprox seasonNames y "autumn" = .ok c ∧ equinox c "autumn" delta = .ok t3 ∧
      equinoxApprox seasonNames y "winter" = .ok d ∧ equinox d "winter" delta = .ok t4 ∧
      (77 < t2 - t1 ∧ t2 - t1 < 105) ∧ (77 < t3 - t2 ∧ t3 - t2 < 105) ∧
      (77 < t4 - t3 ∧ t4 - t3 < 105) := by
  obtain ⟨a, b, c, d, ha, hb, hc, hd', o1, o2, o3, -⟩ := equinox_approx_order y h
  have key : ∀ {season : String} {circ v : ℝ}, (season, circ) ∈ seasonAngle →
      equinoxApprox seasonNames y season = .ok v → ∃ t, equinox v season delta = .ok t ∧
        |t - v| ≤ 5.2 := by
    intro season circ v hs hv
    obtain ⟨w, x, hw, -, hx, -, ht⟩ := equinox_of_approx y h season circ hs
    rw [hv, Except.ok.injEq] at hw
    subst hw
    obtain ⟨t, t1, t2⟩ := ht delta hd
    refine ⟨t, t1, ?_⟩
    have := abs_sub_le t x v
    norm_num at t2 hx ⊢; linarith
  obtain ⟨t1, e1, n1⟩ := key (circ := deg 0) (by simp [seasonAngle]) ha
  obtain ⟨t2, e2, n2⟩ := key (circ := deg 90) (by simp [seasonAngle]) hb
  obtain ⟨t3, e3, n3⟩ := key (circ := deg 180) (by simp [seasonAngle]) hc
  obtain ⟨t4, e4, n4⟩ := key (circ := deg 270) (by simp [seasonAngle]) hd'
  refine ⟨a, b, c, d, t1, t2, t3, t4, ha, e1, hb, e2, hc, e3, hd', e4, ?_⟩
  rw [abs_le] at n1 n2 n3 n4
  norm_num at o1 o2 o3 n1 n2 n3 n4
  refine ⟨⟨?_, ?_⟩, ⟨?_, ?_⟩, ⟨?_, ?_⟩⟩ <;> linarith [o1.1, o1.2, o2.1, o2.2, o3.1, o3.2, n1.1, n1.2,
    n2.1, n2.2, n3.1, n3.2, n4.1, n4.2]

example : (-1000 : ℤ) ≤ 1962 ∧ (1962 : ℤ) ≤ 3000 ∧ ("summer", deg 90) ∈ seasonAngle := by
  simp [seasonAngle]

end Verif

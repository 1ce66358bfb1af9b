import Verif.Lemmas.FloatEquinox

/-!
# C76: `equinox` in binary64

C48 is about the loop of `equinox` in real arithmetic.  Here the loop and everything it calls, the
series of the Earth, the nutation, the aberration and the conversion to FK5, is run with every
operation rounded.  The specification is still the exact event: the instant at which the apparent
longitude of the Sun, in real arithmetic, is the angle of the season.
-/

namespace Verif
open Real

/-- C76: the rounding errors of the nutation are at most `7e-13` radian (`1.5e-7` arc second) within
6000 years of J2000. -/
theorem nutation_float {fl : ℚ → ℚ} (hf : FloatLike fl) {lib : NumLib} {D : ℕ} (hl : lib.Good fl D)
    (jd : ℚ) (h : |millennia jd| ≤ 6) :
    |(nutationInLongitudeF fl lib jd : ℝ) - nutationInLongitude jd| ≤ 7e-13 ∧
      |(nutationInObliquityF fl lib jd : ℝ) - nutationInObliquity jd| ≤ 7e-13 :=
  ⟨nutationInLongitudeF_near hf hl (jcent_60 h), nutationInObliquityF_near hf hl (jcent_60 h)⟩

/-- The error of the longitude of the Earth, by the depth of the summation and the distance from J2000
(in thousands of years). -/
def EarthTol (D T : ℕ) (e : ℚ) : Prop :=
  (D = 64 ∧ T = 2 ∧ e = 2.51e-10) ∨ (D = 64 ∧ T = 6 ∧ e = 7.3e-10) ∨ (D = 1400 ∧ T = 6 ∧ e = 1.8e-8)

theorem EarthTol.le {D T : ℕ} {e : ℚ} (h : EarthTol D T e) : (e : ℝ) ≤ 1.8e-8 ∧ (0 : ℝ) ≤ e ∧ (T : ℝ) ≤ 6 := by
  rcases h with ⟨-, rfl, rfl⟩ | ⟨-, rfl, rfl⟩ | ⟨-, rfl, rfl⟩ <;> push_cast <;> norm_num

theorem EarthTol.near {fl : ℚ → ℚ} (hf : FloatLike fl) {lib : NumLib} {D T : ℕ} {e : ℚ} (h : EarthTol D T e)
    (hl : lib.Good fl D) (jd : ℚ) (hj : |millennia jd| ≤ T) : ∃ L B R, EarthNear fl lib jd e L B R := by
  rcases h with ⟨rfl, rfl, rfl⟩ | ⟨rfl, rfl, rfl⟩ | ⟨rfl, rfl, rfl⟩
  · have := vsop_float_2 hf hl.cos hl.sum jd (by exact_mod_cast hj) ⟨"Earth", 2.51e-10, 1e-13, 3e-13⟩ (by simp [tols2])
    exact earthNear_of this (by norm_num) (by norm_num)
  · have := vsop_float_6 hf hl.cos hl.sum jd (by exact_mod_cast hj) ⟨"Earth", 7.3e-10, 1e-13, 1.2e-12⟩ (by simp [tols6])
    exact earthNear_of this (by norm_num) (by norm_num)
  · have := vsop_float_any hf hl.cos hl.sum jd (by exact_mod_cast hj) ⟨"Earth", 1.8e-8, 1e-13, 1.6e-12⟩ (by simp [tolsAny])
    exact earthNear_of this (by norm_num) (by norm_num)

/-- C76: the apparent longitude of the Sun computed in binary64 is the real one up to the error of the
series of the Earth, `1e-12` radian and whole turns. -/
theorem apparent_sun_float {fl : ℚ → ℚ} (hf : FloatLike fl) {lib : NumLib} {D T : ℕ} {e : ℚ} (he : EarthTol D T e)
    (hl : lib.Good fl D) (jd : ℚ) (hj : |millennia jd| ≤ T) :
    ∃ (Y : ℚ) (k : ℤ) (y : ℝ), apparentSunF fl lib jd = .ok Y ∧ apparentSun vsopDict jd = .ok y ∧ 0 ≤ Y ∧ Y ≤ pi2F ∧
      |(Y : ℝ) - y - k * (2 * π)| ≤ e + 1e-12 := by
  obtain ⟨e1, -, e3⟩ := he.le
  obtain ⟨L, B, R, n⟩ := he.near hf hl jd hj
  obtain ⟨Y, h1, ⟨h2, h3⟩, k, h4⟩ := apparentSunF_near hf hl (hj.trans e3) (e1.trans (by norm_num)) n
  obtain ⟨-, -, m, em⟩ := modpi2_spec (sunLambda jd)
  refine ⟨Y, k - m, _, h1, apparentSun_eq jd, h2, h3, ?_⟩
  unfold Near at h4
  refine le_trans (le_of_eq ?_) h4
  rw [em]; congr 1; push_cast; ring

/-- The floats of the angles of the seasons. -/
theorem circleF_near {fl : ℚ → ℚ} (hf : FloatLike fl) {season : String} {circ : ℝ} (h : (season, circ) ∈ seasonAngle) :
    ∃ C, (circleF fl).lookup season = some C ∧ (0 ≤ C ∧ C ≤ 5) ∧ Near C circ 1e-15 := by
  have up : ∀ {C : ℚ} {c : ℝ}, Near C c 1e-15 → c ≤ 4.72 → C ≤ 5 := by
    intro C c hn hc
    have := (abs_le.mp hn).2
    have : (C : ℝ) ≤ 5 := by norm_num at this hc ⊢; linarith
    exact_mod_cast this
  have pp := Real.pi_lt_d4
  have p0 := Real.pi_pos
  have pn : (0 : ℚ) ≤ piF := by norm_num [piF]
  simp only [seasonAngle, List.mem_cons, List.not_mem_nil, or_false, Prod.mk.injEq] at h
  unfold circleF
  have d0 : deg 0 = 0 := by unfold deg; ring
  have d90 : deg 90 = π / 2 := by unfold deg; ring
  have d180 : deg 180 = π := by unfold deg; ring
  have d270 : deg 270 = 3 * π / 2 := by unfold deg; ring
  rw [d0, d90, d180, d270] at h
  rcases h with ⟨rfl, rfl⟩ | ⟨rfl, rfl⟩ | ⟨rfl, rfl⟩ | ⟨rfl, rfl⟩
  · exact ⟨0, by simp [List.lookup], by norm_num, by simp [Near]; norm_num⟩
  · have n := (piF_near.mul (near_self (0.5 : ℚ)) pi_abs (by norm_num : |((0.5 : ℚ) : ℝ)| ≤ 0.5)).rnd hf (M := 2)
      (e' := 1e-15) (by rw [abs_of_nonneg (by push_cast; positivity)]; norm_num at pp ⊢; linarith)
      (by rw [uuR, wwR]; norm_num)
    have n' : Near (fl (piF * 0.5)) (π / 2) 1e-15 := by
      have e : π * ((0.5 : ℚ) : ℝ) = π / 2 := by push_cast; ring
      rw [e] at n; exact n
    exact ⟨_, by simp [List.lookup], ⟨hf.fl_nonneg (by norm_num [piF]), up n' (by norm_num at pp ⊢; linarith)⟩, n'⟩
  · exact ⟨_, by simp [List.lookup], ⟨pn, by norm_num [piF]⟩, piF_near.mono (by norm_num)⟩
  · have n := (piF_near.mul (near_self (1.5 : ℚ)) pi_abs (by norm_num : |((1.5 : ℚ) : ℝ)| ≤ 1.5)).rnd hf (M := 5)
      (e' := 1e-15) (by rw [abs_of_nonneg (by push_cast; positivity)]; norm_num at pp ⊢; linarith)
      (by rw [uuR, wwR]; norm_num)
    have n' : Near (fl (piF * 1.5)) (3 * π / 2) 1e-15 := by
      have e : π * ((1.5 : ℚ) : ℝ) = 3 * π / 2 := by push_cast; ring
      rw [e] at n; exact n
    exact ⟨_, by simp [List.lookup], ⟨hf.fl_nonneg (by norm_num [piF]), up n' (by norm_num at pp ⊢; linarith)⟩, n'⟩

/-- The error in days which the roundings of one pass cause. -/
def passErr (e : ℚ) : ℚ := 58.2 * e + 6e-10

/-- C76: from every start (a float) that is 100 years inside the range, for every season and every
precision of at least 2.2 times the error of a pass, `equinox` in binary64 returns a time.  It is
within 0.056 times the requested precision, plus 1.06 times the error of a pass, of an event. -/
theorem equinox_float {fl : ℚ → ℚ} (hf : FloatLike fl) {lib : NumLib} {D T : ℕ} {e : ℚ} (he : EarthTol D T e)
    (hl : lib.Good fl D) (jd : ℚ) (h : |millennia jd| ≤ T - 0.1) (season : String) (circ : ℝ)
    (hs : (season, circ) ∈ seasonAngle) (delta : ℚ) (hd : 2.2 * passErr e ≤ delta) :
    ∃ (t : ℚ) (x : ℝ), equinoxF fl lib jd season delta = .ok t ∧ IsEvent circ x ∧
      |(t : ℝ) - x| ≤ 0.056 * delta + 1.06 * passErr e ∧ |x - jd| ≤ 193 := by
  obtain ⟨-, h0, h1⟩ := seasonAngle_circle hs
  obtain ⟨C, c1, c2, c3⟩ := circleF_near hf hs
  obtain ⟨e1, e0, e3⟩ := he.le
  have app : ∀ jd : ℚ, |millennia jd| ≤ T → ∃ Y, apparentSunF fl lib jd = .ok Y ∧ (0 ≤ Y ∧ Y ≤ pi2F) ∧
      NearA Y (sunLambda jd) (e + 1e-12) := by
    intro jd hj
    obtain ⟨L, B, R, n⟩ := he.near hf hl jd hj
    exact apparentSunF_near hf hl (hj.trans e3) (e1.trans (by norm_num)) n
  have h59 : |millennia jd| ≤ 5.9 := by
    have : (T : ℝ) - 0.1 ≤ 5.9 := by linarith
    exact h.trans this
  obtain ⟨Y, a1, a2, a3⟩ := app jd (h.trans (by norm_num))
  obtain ⟨r, k, n⟩ := diffAngleF_near hf a2 a3 c2 c3
  obtain ⟨x, x1, x2, -⟩ := event_exists jd (sunLambda jd + (circ - sunLambda jd + k * (2 * π))) h59 (by
    rw [add_sub_cancel_left]
    unfold Near at n
    have := abs_sub_abs_le_abs_sub (circ - sunLambda jd + k * (2 * π)) (diffAngleF fl Y C : ℝ)
    rw [abs_sub_comm] at this
    norm_num at this e1 n r ⊢; linarith)
  have ex : IsEvent circ x := (isEvent_iff h0 h1).mpr ⟨k, by rw [x2]; ring⟩
  have hx : |millennia x| ≤ T - 0.01 := by
    have e1 : millennia x = millennia jd + (x - jd) / 365250 := by unfold millennia; ring
    rw [e1]
    refine (abs_add_le _ _).trans ?_
    rw [abs_div, abs_of_pos (by norm_num : (0 : ℝ) < 365250)]
    have : |x - jd| / 365250 ≤ 0.01 := by rw [div_le_iff₀ (by norm_num)]; norm_num; linarith
    norm_num at h this ⊢; linarith
  have hd' : 2.2 * (passErr e : ℝ) ≤ delta := by
    have := (Rat.cast_le (K := ℝ)).mpr hd; push_cast at this; exact this
  have pe : (passErr e : ℝ) = 58.2 * e + 6e-10 := by unfold passErr; push_cast; rfl
  rw [abs_sub_comm] at x1
  obtain ⟨t, t1, t2⟩ := equinox_loopF hf (e := e + 1e-12) e3 (by norm_num; linarith) (by norm_num at e1 ⊢; linarith)
    app h0 h1 c2 c3 ex hx (delta := delta) rfl 19 jd 193 (by norm_num; linarith) (by
      intro Y' eY'
      rw [a1, Except.ok.injEq] at eY'
      subst eY'
      rw [x2]
      unfold Near at n
      refine le_trans (le_of_eq ?_) n
      congr 1; ring) (by norm_num) (by norm_num; linarith) (by
      refine lt_of_lt_of_le ?_ hd'
      rw [pe]
      norm_num; linarith)
  refine ⟨t, x, ?_, ex, ?_, by rwa [abs_sub_comm]⟩
  · unfold equinoxF
    rw [c1]; exact t1
  · refine t2.trans ?_
    rw [pe]; norm_num; linarith

/-- C76: within 1900 years of J2000, for precisions of a hundredth of a second and more: within 5.6
percent of the precision plus 1.5 milliseconds of an event. -/
theorem equinox_float_2 {fl : ℚ → ℚ} (hf : FloatLike fl) {lib : NumLib} (hl : lib.Good fl 64) (jd : ℚ)
    (h : |millennia jd| ≤ 1.9) (season : String) (circ : ℝ) (hs : (season, circ) ∈ seasonAngle) (delta : ℚ)
    (hd : 1e-7 ≤ delta) :
    ∃ (t : ℚ) (x : ℝ), equinoxF fl lib jd season delta = .ok t ∧ IsEvent circ x ∧
      |(t : ℝ) - x| ≤ 0.056 * delta + 1.7e-8 ∧ |x - jd| ≤ 193 := by
  obtain ⟨t, x, h1, h2, h3, h4⟩ := equinox_float hf (.inl ⟨rfl, rfl, rfl⟩) hl jd (by norm_num at h ⊢; linarith) season circ hs
    delta (le_trans (by norm_num [passErr]) hd)
  exact ⟨t, x, h1, h2, h3.trans (by norm_num [passErr]), h4⟩

/-- C76: within 5900 years of J2000, for precisions of a hundredth of a second and more: within 5.6
percent of the precision plus 4 milliseconds of an event. -/
theorem equinox_float_6 {fl : ℚ → ℚ} (hf : FloatLike fl) {lib : NumLib} (hl : lib.Good fl 64) (jd : ℚ)
    (h : |millennia jd| ≤ 5.9) (season : String) (circ : ℝ) (hs : (season, circ) ∈ seasonAngle) (delta : ℚ)
    (hd : 1e-7 ≤ delta) :
    ∃ (t : ℚ) (x : ℝ), equinoxF fl lib jd season delta = .ok t ∧ IsEvent circ x ∧
      |(t : ℝ) - x| ≤ 0.056 * delta + 4.6e-8 ∧ |x - jd| ≤ 193 := by
  obtain ⟨t, x, h1, h2, h3, h4⟩ := equinox_float hf (.inr (.inl ⟨rfl, rfl, rfl⟩)) hl jd (by norm_num at h ⊢; linarith) season circ hs
    delta (le_trans (by norm_num [passErr]) hd)
  exact ⟨t, x, h1, h2, h3.trans (by norm_num [passErr]), h4⟩

/-- C76: however NumPy adds up the series, for precisions of a quarter of a second and more (the default
is a second). -/
theorem equinox_float_any {fl : ℚ → ℚ} (hf : FloatLike fl) {lib : NumLib} (hl : lib.Good fl 1400) (jd : ℚ)
    (h : |millennia jd| ≤ 5.9) (season : String) (circ : ℝ) (hs : (season, circ) ∈ seasonAngle) (delta : ℚ)
    (hd : 2.5e-6 ≤ delta) :
    ∃ (t : ℚ) (x : ℝ), equinoxF fl lib jd season delta = .ok t ∧ IsEvent circ x ∧
      |(t : ℝ) - x| ≤ 0.056 * delta + 1.12e-6 ∧ |x - jd| ≤ 193 := by
  obtain ⟨t, x, h1, h2, h3, h4⟩ := equinox_float hf (.inr (.inr ⟨rfl, rfl, rfl⟩)) hl jd (by norm_num at h ⊢; linarith) season circ hs
    delta (le_trans (by norm_num [passErr]) hd)
  exact ⟨t, x, h1, h2, h3.trans (by norm_num [passErr]), h4⟩

/-- C76: starting within 150 days of an event, that event is found, by the code in real arithmetic and
by the code in binary64: the two results differ by at most 11.2 percent of the precision plus 4
milliseconds. -/
theorem equinox_float_nearest {fl : ℚ → ℚ} (hf : FloatLike fl) {lib : NumLib} (hl : lib.Good fl 64) (jd : ℚ)
    (h : |millennia jd| ≤ 5.9) (season : String) (circ x : ℝ) (hs : (season, circ) ∈ seasonAngle)
    (ex : IsEvent circ x) (hx : |x - jd| ≤ 150) (delta : ℚ) (hd : 1e-7 ≤ delta) :
    ∃ (t : ℚ) (s : ℝ), equinoxF fl lib jd season delta = .ok t ∧ equinox jd season delta = .ok s ∧
      |(t : ℝ) - x| ≤ 0.056 * delta + 4.6e-8 ∧ |s - x| ≤ 0.056 * delta ∧ |(t : ℝ) - s| ≤ 0.112 * delta + 4.6e-8 := by
  obtain ⟨t, y, ht, ey, ty, y1⟩ := equinox_float_6 hf hl jd h season circ hs delta hd
  obtain ⟨-, h0, h1⟩ := seasonAngle_circle hs
  have hd' : (1e-7 : ℝ) ≤ delta := by have := (Rat.cast_le (K := ℝ)).mpr hd; push_cast at this; exact this
  obtain ⟨s, hs1, hs2⟩ := equinox_nearest jd h season circ x hs ex hx delta (le_trans (by norm_num) hd')
  have exy : x = y := by
    by_contra ne
    have a := events_apart circ x y h0 h1 (millennia_near h (by linarith)) (millennia_near h (by linarith)) ex ey ne
    have := abs_sub_le x jd y
    rw [abs_sub_comm (jd : ℝ) y] at this
    linarith
  subst exy
  refine ⟨t, s, ht, hs1, ty, hs2, ?_⟩
  have := abs_sub_le (t : ℝ) x s
  rw [abs_sub_comm x s] at this
  linarith

/-- C76: an unknown season raises `KeyError`. -/
theorem equinox_float_unknown (fl : ℚ → ℚ) (lib : NumLib) (jd delta : ℚ) (season : String)
    (h : season ∉ ["spring", "summer", "autumn", "winter"]) :
    equinoxF fl lib jd season delta = .error (.KeyError season) := by
  simp only [List.mem_cons, List.not_mem_nil, or_false, not_or] at h
  obtain ⟨a, b, c, d⟩ := h
  have : (circleF fl).lookup season = none := by
    unfold circleF
    simp only [List.lookup, beq_false_of_ne a, beq_false_of_ne b, beq_false_of_ne c, beq_false_of_ne d]
  unfold equinoxF
  rw [this]

/-- C76: a precision that is not positive ends in "bailout", whatever the arithmetic and the library. -/
theorem equinox_float_nonpos (fl : ℚ → ℚ) (lib : NumLib) (jd delta : ℚ) (hd : delta ≤ 0) (season : String)
    (h : season ∈ ["spring", "summer", "autumn", "winter"]) :
    equinoxF fl lib jd season delta = .error (.Error "equinox" "bailout") := by
  have ok : ∀ jd, ∃ Y, apparentSunF fl lib jd = .ok Y := by
    intro jd
    obtain ⟨kL, kB, kR⟩ := lookup_earth
    have v : ∀ d c, vsopDict.lookup ("Earth", d) = some c →
        ∃ X, vsopDimensionF fl lib.cosF lib.sumF jd "Earth" d = .ok X := by
      intro d c h; unfold vsopDimensionF; rw [h]; exact ⟨_, rfl⟩
    obtain ⟨L, eL⟩ := v _ _ kL
    obtain ⟨B, eB⟩ := v _ _ kB
    obtain ⟨R, eR⟩ := v _ _ kR
    unfold apparentSunF sunDimension3F
    rw [eL, eB, eR]
    exact ⟨_, rfl⟩
  have l : ∀ n circ jd, equinoxLoopF fl lib circ delta n jd = .error (.Error "equinox" "bailout") := by
    intro n circ
    induction n with
    | zero => intro jd; rfl
    | succ n ih =>
      intro jd
      obtain ⟨Y, eY⟩ := ok jd
      rw [equinoxLoopF_step eY, if_neg (not_lt.mpr (hd.trans (abs_nonneg _))), ih]
  have : ∃ C, (circleF fl).lookup season = some C := by
    simp only [List.mem_cons, List.not_mem_nil, or_false] at h
    unfold circleF
    rcases h with rfl | rfl | rfl | rfl <;> simp [List.lookup]
  obtain ⟨C, hc⟩ := this
  unfold equinoxF
  rw [hc]
  exact l _ _ _

/-! ### The assumptions can be met -/

theorem numLib_exists (D : ℕ) (sumF : List ℚ → ℚ) (fl : ℚ → ℚ) (hs : SumLike fl 1400 D sumF) :
    ∃ lib : NumLib, lib.Good fl D := by
  have : ∀ y : ℝ, ∃ q : ℚ, |(q : ℝ) - y| ≤ 1 / 2 ^ 50 := by
    intro y
    obtain ⟨q, h1, h2⟩ := exists_rat_btwn (show y - 1 / 2 ^ 50 < y by norm_num)
    exact ⟨q, abs_le.mpr ⟨by linarith, by norm_num at h2 ⊢; linarith⟩⟩
  choose f hf using this
  exact ⟨⟨fun x => f (Real.cos x), fun x => f (Real.sin x), fun x => f (Real.tan x), sumF⟩,
    fun x => hf _, fun x => hf _, fun x _ => hf _, hs⟩

example : ∃ lib : NumLib, lib.Good rne 64 :=
  numLib_exists 64 (halfSum rne 64) rne fun l h => halfSum_flSum rne 64 l (h.trans (by norm_num))

example : |millennia ((2437837.38589 : ℚ) : ℝ)| ≤ 1.9 ∧ (1e-7 : ℚ) ≤ 1 / 86400 ∧ (2.5e-6 : ℚ) ≤ 1 / 86400 := by
  unfold millennia; rw [abs_le]; norm_num

end Verif

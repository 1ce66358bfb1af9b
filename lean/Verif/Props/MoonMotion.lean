import Verif.Lemmas.MoonMotion

/-!
# C72: the motion of the Moon

Real arithmetic.  All statements are about the values returned by `Lunar` and, for the phases, by the
apparent longitude of the Sun used by `equinox`.
-/

namespace Verif
open Real

theorem centuries_near {x y r : ℝ} (hx : |centuries x| ≤ 19.99) (h : |y - x| ≤ r) (hr : r ≤ 300) :
    |centuries y| ≤ 20 := by
  have e : centuries y = centuries x + (y - x) / 36525 := by unfold centuries; ring
  rw [e]
  refine (abs_add_le _ _).trans ?_
  rw [abs_div, abs_of_pos (by norm_num : (0 : ℝ) < 36525)]
  have : |y - x| / 36525 ≤ 0.01 := by rw [div_le_iff₀ (by norm_num)]; norm_num; linarith
  norm_num at hx this ⊢; linarith

theorem deg_sub (x y : ℝ) : deg (x - y) = deg x - deg y := by unfold deg; ring

theorem deg_neg (x : ℝ) : deg (-x) = -deg x := by unfold deg; ring

theorem two_pi_deg : 2 * π = deg 360 := by unfold deg; ring

theorem moon_advance {x y : ℝ} (hx : |centuries x| ≤ 20) (hy : |centuries y| ≤ 20) (h : x ≤ y) :
    deg (10.9 * (y - x)) ≤ moonLambda y - moonLambda x ∧
      moonLambda y - moonLambda x ≤ deg (15.45 * (y - x)) := by
  have r := moonLambda_rate hy hx
  have n : (0 : ℝ) ≤ y - x := by linarith
  rw [abs_of_nonneg n, abs_le] at r
  obtain ⟨r1, r2⟩ := r
  have a : deg (10.9 * (y - x)) ≤ deg (13.1764 * (y - x)) - deg (2.272 * (y - x)) := by
    rw [← deg_sub, deg_le]; norm_num; linarith
  have b : deg (13.1764 * (y - x)) + deg (2.272 * (y - x)) ≤ deg (15.45 * (y - x)) := by
    rw [← deg_add, deg_le]; norm_num; linarith
  constructor <;> linarith

/-- C72: within 2000 years of J2000 the Moon always moves forward, by 10.9 to 15.45 degrees a day:
its longitude is, up to whole turns, a function that grows between any two times by an amount in
these bounds. Over any time it stays within 18.49 degrees of 13.1764 degrees a day (give or take
0.0001 degree a day). -/
theorem moon_advances : ∃ lon : ℝ → ℝ, (∀ jd, Congr (2 * π) (lunarLongitude jd) (lon jd)) ∧
    ∀ x y, |centuries x| ≤ 20 → |centuries y| ≤ 20 → x ≤ y →
      (deg (10.9 * (y - x)) ≤ lon y - lon x ∧ lon y - lon x ≤ deg (15.45 * (y - x))) ∧
      |lon y - lon x - deg (13.1764 * (y - x))| ≤ deg (18.49 + 0.0001 * (y - x)) := by
  refine ⟨moonLambda, moonLambda_congr, fun x y hx hy h => ⟨moon_advance hx hy h, ?_⟩⟩
  have m := moonLambda_mean hy hx
  rw [abs_of_nonneg (by linarith : (0 : ℝ) ≤ y - x)] at m
  refine m.trans (deg_le.mpr ?_)
  norm_num

/-- Continuity from a bound on the rate. -/
theorem continuousOn_of_rate {f : ℝ → ℝ} {a b c d : ℝ} (hd : 0 ≤ d)
    (h : ∀ x ∈ Set.Icc a b, ∀ y ∈ Set.Icc a b, |f x - f y - deg (c * (x - y))| ≤ deg (d * |x - y|)) :
    ContinuousOn f (Set.Icc a b) := by
  have k0 : 0 ≤ deg (|c| + d) := by unfold deg; positivity
  have : LipschitzOnWith ⟨deg (|c| + d), k0⟩ f (Set.Icc a b) := by
    refine LipschitzOnWith.of_dist_le_mul fun x hx y hy => ?_
    rw [Real.dist_eq, Real.dist_eq]
    change |f x - f y| ≤ deg (|c| + d) * |x - y|
    have e : f x - f y = (f x - f y - deg (c * (x - y))) + deg (c * (x - y)) := by ring
    rw [e]
    refine (abs_add_le _ _).trans ((add_le_add (h x hx y hy) le_rfl).trans (le_of_eq ?_))
    rw [abs_deg, abs_mul]
    unfold deg; ring
  exact this.continuousOn

/-- A function that grows by a turn takes every angle. -/
theorem takes_every_angle {f : ℝ → ℝ} {a b : ℝ} (hab : a ≤ b) (hf : ContinuousOn f (Set.Icc a b))
    (h : 2 * π ≤ f b - f a) (t : ℝ) : ∃ y, a ≤ y ∧ y ≤ b ∧ Congr (2 * π) (f y) t := by
  obtain ⟨h0, h1, h2⟩ := modpi2_spec (t - f a)
  obtain ⟨y, hy, e⟩ := intermediate_value_Icc hab hf
    (show f a + modpi2 (t - f a) ∈ Set.Icc (f a) (f b) from ⟨by linarith, by linarith⟩)
  refine ⟨y, hy.1, hy.2, ?_⟩
  rw [e]
  have := congr_add (congr_refl (t := 2 * π) (f a)) h2
  rwa [show f a + (t - f a) = t by ring] at this

/-- C72: whatever the starting time and the angle, the Moon reaches that longitude within 28.8
days. -/
theorem moon_reaches (jd t : ℝ) (h : |centuries jd| ≤ 19.99) :
    ∃ y, jd ≤ y ∧ y ≤ jd + 28.8 ∧ Congr (2 * π) (lunarLongitude y) t := by
  have near : ∀ x ∈ Set.Icc jd (jd + 28.8), |centuries x| ≤ 20 := by
    intro x hx
    refine centuries_near h (r := 28.8) ?_ (by norm_num)
    rw [abs_of_nonneg (by linarith [hx.1])]; linarith [hx.2]
  have l : jd ≤ jd + 28.8 := by norm_num
  have n0 := near jd ⟨le_rfl, l⟩
  have n1 := near (jd + 28.8) ⟨l, le_rfl⟩
  have m := (abs_le.mp (moonLambda_mean n1 n0)).1
  rw [show jd + 28.8 - jd = 28.8 by ring, abs_of_pos (by norm_num : (0 : ℝ) < 28.8)] at m
  obtain ⟨y, h1, h2, c⟩ := takes_every_angle l (f := moonLambda)
    (continuousOn_of_rate (c := 13.1764) (d := 2.272) (by norm_num)
      fun x hx y hy => moonLambda_rate (near x hx) (near y hy)) (by
    rw [two_pi_deg]
    have : deg 360 ≤ deg (13.1764 * 28.8) - deg (18.486 + 0.0001 * 28.8) := by
      rw [← deg_sub, deg_le]; norm_num
    linarith) t
  exact ⟨y, h1, h2, congr_trans (moonLambda_congr y) c⟩

example : |centuries 2448724.5| ≤ 19.99 := by unfold centuries; rw [abs_le]; norm_num

/-- If a function grows and takes the same angle twice, it has gained a turn. -/
theorem gained_turn {f : ℝ → ℝ} {x y t : ℝ} (hx : Congr (2 * π) (f x) t) (hy : Congr (2 * π) (f y) t)
    (h : f x < f y) : 2 * π ≤ f y - f x := by
  obtain ⟨j, ej⟩ := hx
  obtain ⟨k, ek⟩ := hy
  have d : f y - f x = ((k - j : ℤ) : ℝ) * (2 * π) := by rw [ej, ek]; push_cast; ring
  have p : 0 < ((k - j : ℤ) : ℝ) * (2 * π) := by linarith
  have q : 0 < k - j := by
    have := pos_of_mul_pos_left p (by positivity : (0 : ℝ) ≤ 2 * π)
    exact_mod_cast this
  have one : (1 : ℝ) ≤ ((k - j : ℤ) : ℝ) := by exact_mod_cast q
  rw [d]
  nlinarith [Real.pi_pos]

/-- C72: after passing a longitude, the Moon comes back to it no sooner than 25.9 days later. -/
theorem moon_returns_apart (x y t : ℝ) (hx : |centuries x| ≤ 20) (hy : |centuries y| ≤ 20) (h : x < y)
    (ex : Congr (2 * π) (lunarLongitude x) t) (ey : Congr (2 * π) (lunarLongitude y) t) :
    x + 25.9 ≤ y := by
  have a := (moon_advance hx hy h.le).1
  have a0 : 0 < deg (10.9 * (y - x)) := by
    rw [← show deg 0 = 0 by unfold deg; ring, deg_lt]; norm_num; linarith
  have g := gained_turn (f := moonLambda) (congr_trans (congr_symm (moonLambda_congr x)) ex)
    (congr_trans (congr_symm (moonLambda_congr y)) ey) (by linarith)
  have m := (abs_le.mp (moonLambda_mean hy hx)).2
  rw [abs_of_nonneg (by linarith : (0 : ℝ) ≤ y - x)] at m
  have q : deg 360 ≤ deg (13.1764 * (y - x) + (18.486 + 0.0001 * (y - x))) := by
    rw [deg_add, ← two_pi_deg]; linarith
  rw [deg_le] at q
  norm_num at q ⊢
  linarith

/-- The hypotheses are met: the longitude at any time is reached again within 28.8 days after the
next day, so at least 25.9 days later. -/
example : ∃ x y t : ℝ, |centuries x| ≤ 20 ∧ |centuries y| ≤ 20 ∧ x < y ∧
    Congr (2 * π) (lunarLongitude x) t ∧ Congr (2 * π) (lunarLongitude y) t := by
  have h1 : |centuries 2451546| ≤ 19.99 := by unfold centuries; rw [abs_le]; norm_num
  obtain ⟨y, a, b, c⟩ := moon_reaches 2451546 (lunarLongitude 2451545) h1
  refine ⟨2451545, y, _, by unfold centuries; rw [abs_le]; norm_num, ?_, by linarith,
    congr_refl _, c⟩
  exact centuries_near h1 (r := 28.8) (by rw [abs_of_nonneg (by linarith)]; linarith) (by norm_num)

/-! ### Phases -/

/-- At the time `jd` the library's longitudes of the Moon and the Sun differ by the angle `t` (0 at
new Moon, a right angle at the first quarter, half a turn at full Moon). -/
def IsPhase (t jd : ℝ) : Prop :=
  ∃ s, apparentSun vsopDict jd = .ok s ∧ Congr (2 * π) (lunarLongitude jd - s) t

/-- Unreduced elongation of the Moon. -/
noncomputable def elong (jd : ℝ) : ℝ := moonLambda jd - sunLambda jd

theorem isPhase_iff (t jd : ℝ) : IsPhase t jd ↔ Congr (2 * π) (elong jd) t := by
  have c : Congr (2 * π) (lunarLongitude jd - modpi2 (sunLambda jd)) (elong jd) :=
    congr_sub' (moonLambda_congr jd) (modpi2_spec _).2.2
  unfold IsPhase
  rw [apparentSun_eq]
  constructor
  · rintro ⟨s, e, h⟩
    rw [Except.ok.injEq] at e
    subst e
    exact congr_trans (congr_symm c) h
  · intro h
    exact ⟨_, rfl, congr_trans c h⟩

theorem sunLambda_rate_days {x y : ℝ} (hx : |centuries x| ≤ 20) (hy : |centuries y| ≤ 20) :
    |sunLambda x - sunLambda y - deg (0.98565 * (x - y))| ≤ deg (0.0523 * |x - y|) := by
  have r := sunLambda_rate (x := x) (y := y) (by linarith [millennia_le hx])
    (by linarith [millennia_le hy])
  have e : millennia x - millennia y = (x - y) / 365250 := by unfold millennia; ring
  rw [e, abs_div, abs_of_pos (by norm_num : (0 : ℝ) < 365250)] at r
  generalize sunLambda x - sunLambda y = u at *
  generalize x - y = w at *
  have k : u - deg (0.98565 * w) = (u - 6283.32 * (w / 365250)) +
      (6283.32 / 365250 - 0.98565 * (π / 180)) * w := by unfold deg; ring
  rw [k]
  refine (abs_add_le _ _).trans ((add_le_add r le_rfl).trans ?_)
  rw [abs_mul]
  have p1 := Real.pi_gt_d6
  have p2 := Real.pi_lt_d6
  have q : |(6283.32 / 365250 - 0.98565 * (π / 180) : ℝ)| ≤ 0.0000005 := by
    rw [abs_le]; constructor <;> norm_num at p1 p2 ⊢ <;> linarith
  have q2 := mul_le_mul_of_nonneg_right q (abs_nonneg w)
  have n := abs_nonneg w
  unfold deg
  norm_num at p1 q2 ⊢
  nlinarith

theorem sunLambda_mean_days {x y : ℝ} (hx : |centuries x| ≤ 20) (hy : |centuries y| ≤ 20) :
    |sunLambda x - sunLambda y - deg (0.98565 * (x - y))| ≤ deg (5.39 + 0.0001 * |x - y|) := by
  have a := sunLambda_mean (jd := x) (by linarith [millennia_le hx])
  have b := sunLambda_mean (jd := y) (by linarith [millennia_le hy])
  have e : millennia x - millennia y = (x - y) / 365250 := by unfold millennia; ring
  have k : sunLambda x - sunLambda y - deg (0.98565 * (x - y)) =
      (sunLambda x - (175347045673 / 10 ^ 11 + 628331966747491 / 10 ^ 11 * millennia x + π)) -
      (sunLambda y - (175347045673 / 10 ^ 11 + 628331966747491 / 10 ^ 11 * millennia y + π)) +
      (628331966747491 / 10 ^ 11 / 365250 - 0.98565 * (π / 180)) * (x - y) := by
    have : 628331966747491 / 10 ^ 11 / 365250 * (x - y) =
      628331966747491 / 10 ^ 11 * (millennia x - millennia y) := by rw [e]; ring
    unfold deg
    linear_combination -this
  rw [k]
  have c := abs_sub (sunLambda x - (175347045673 / 10 ^ 11 + 628331966747491 / 10 ^ 11 *
    millennia x + π)) (sunLambda y - (175347045673 / 10 ^ 11 + 628331966747491 / 10 ^ 11 *
    millennia y + π))
  refine (abs_add_le _ _).trans ((add_le_add (c.trans (add_le_add a b)) le_rfl).trans ?_)
  rw [abs_mul]
  have p1 := Real.pi_gt_d6
  have p2 := Real.pi_lt_d6
  have q : |(628331966747491 / 10 ^ 11 / 365250 - 0.98565 * (π / 180) : ℝ)| ≤ 0.0000005 := by
    rw [abs_le]; constructor <;> norm_num at p1 p2 ⊢ <;> linarith
  have q2 := mul_le_mul_of_nonneg_right q (abs_nonneg (x - y))
  have n := abs_nonneg (x - y)
  unfold deg
  norm_num at p1 q2 ⊢
  nlinarith

theorem elong_rate {x y : ℝ} (hx : |centuries x| ≤ 20) (hy : |centuries y| ≤ 20) :
    |elong x - elong y - deg (12.19075 * (x - y))| ≤ deg (2.33 * |x - y|) := by
  have a := moonLambda_rate hx hy
  have b := sunLambda_rate_days hx hy
  unfold elong
  have k : ∀ m s m' s' : ℝ, m - s - (m' - s') - deg (12.19075 * (x - y)) =
      (m - m' - deg (13.1764 * (x - y))) - (s - s' - deg (0.98565 * (x - y))) := by
    intros; unfold deg; ring
  rw [k]
  refine (abs_sub _ _).trans ((add_le_add a b).trans ?_)
  rw [← deg_add, deg_le]
  have n := abs_nonneg (x - y)
  norm_num
  linarith

theorem elong_mean {x y : ℝ} (hx : |centuries x| ≤ 20) (hy : |centuries y| ≤ 20) :
    |elong x - elong y - deg (12.19075 * (x - y))| ≤ deg (23.876 + 0.0002 * |x - y|) := by
  have a := moonLambda_mean hx hy
  have b := sunLambda_mean_days hx hy
  unfold elong
  have k : ∀ m s m' s' : ℝ, m - s - (m' - s') - deg (12.19075 * (x - y)) =
      (m - m' - deg (13.1764 * (x - y))) - (s - s' - deg (0.98565 * (x - y))) := by
    intros; unfold deg; ring
  rw [k]
  refine (abs_sub _ _).trans ((add_le_add a b).trans ?_)
  rw [← deg_add, deg_le]
  have n := abs_nonneg (x - y)
  norm_num
  linarith

theorem elong_advance {x y : ℝ} (hx : |centuries x| ≤ 20) (hy : |centuries y| ≤ 20) (h : x < y) :
    elong x < elong y := by
  have r := (abs_le.mp (elong_rate hy hx)).1
  have n : (0 : ℝ) < y - x := by linarith
  rw [abs_of_pos n] at r
  have a : 0 < deg (12.19075 * (y - x)) - deg (2.33 * (y - x)) := by
    rw [← deg_sub, ← show deg 0 = 0 by unfold deg; ring, deg_lt]; norm_num; linarith
  linarith

theorem elong_continuousOn (a b : ℝ) (h : ∀ x ∈ Set.Icc a b, |centuries x| ≤ 20) :
    ContinuousOn elong (Set.Icc a b) :=
  continuousOn_of_rate (c := 12.19075) (d := 2.33) (by norm_num)
    fun x hx y hy => elong_rate (h x hx) (h y hy)

/-- C72: every phase of the Moon occurs within any 31.6 days. -/
theorem moon_phase_exists (t jd : ℝ) (h : |centuries jd| ≤ 19.99) :
    ∃ y, jd ≤ y ∧ y ≤ jd + 31.6 ∧ IsPhase t y := by
  have near : ∀ x ∈ Set.Icc jd (jd + 31.6), |centuries x| ≤ 20 := by
    intro x hx
    refine centuries_near h (r := 31.6) ?_ (by norm_num)
    rw [abs_of_nonneg (by linarith [hx.1])]; linarith [hx.2]
  have l : jd ≤ jd + 31.6 := by norm_num
  have m := (abs_le.mp (elong_mean (near (jd + 31.6) ⟨l, le_rfl⟩) (near jd ⟨le_rfl, l⟩))).1
  rw [show jd + 31.6 - jd = 31.6 by ring, abs_of_pos (by norm_num : (0 : ℝ) < 31.6)] at m
  obtain ⟨y, h1, h2, c⟩ := takes_every_angle l (elong_continuousOn _ _ near) (by
    rw [two_pi_deg]
    have : deg 360 ≤ deg (12.19075 * 31.6) - deg (23.876 + 0.0002 * 31.6) := by
      rw [← deg_sub, deg_le]; norm_num
    linarith) t
  exact ⟨y, h1, h2, (isPhase_iff t y).mpr c⟩

/-- C72: two occurrences of the same phase are at least 27.5 days apart. -/
theorem moon_phase_apart (t x y : ℝ) (hx : |centuries x| ≤ 20) (hy : |centuries y| ≤ 20) (h : x < y)
    (ex : IsPhase t x) (ey : IsPhase t y) : x + 27.5 ≤ y := by
  rw [isPhase_iff] at ex ey
  have g := gained_turn ex ey (elong_advance hx hy h)
  have m := (abs_le.mp (elong_mean hy hx)).2
  rw [abs_of_nonneg (by linarith : (0 : ℝ) ≤ y - x)] at m
  have q : deg 360 ≤ deg (12.19075 * (y - x) + (23.876 + 0.0002 * (y - x))) := by
    rw [deg_add, ← two_pi_deg]; linarith
  rw [deg_le] at q
  norm_num at q ⊢
  linarith

/-- The hypotheses are met by two successive new Moons. -/
example : ∃ x y : ℝ, |centuries x| ≤ 20 ∧ |centuries y| ≤ 20 ∧ x < y ∧ IsPhase 0 x ∧ IsPhase 0 y := by
  have h1 : |centuries 2451545| ≤ 19.99 := by unfold centuries; rw [abs_le]; norm_num
  have h2 : |centuries 2451600| ≤ 19.99 := by unfold centuries; rw [abs_le]; norm_num
  obtain ⟨x, a, b, c⟩ := moon_phase_exists 0 2451545 h1
  obtain ⟨y, a', b', c'⟩ := moon_phase_exists 0 2451600 h2
  refine ⟨x, y, centuries_near h1 (r := 31.6) ?_ (by norm_num),
    centuries_near h2 (r := 31.6) ?_ (by norm_num), ?_, c, c'⟩
  · rw [abs_of_nonneg (by linarith)]; linarith
  · rw [abs_of_nonneg (by linarith)]; linarith
  · norm_num at b; linarith

/-- C72: the phases follow one another in order: after an occurrence `x` of the phase `t` and up to
the next occurrence `y` of the same phase, every later phase `t + u`, `0 < u < 2π`, occurs exactly
once, and smaller `u` earlier. -/
theorem moon_phases_ordered (t x y : ℝ) (hx : |centuries x| ≤ 20) (hy : |centuries y| ≤ 20)
    (h : x < y) (ex : IsPhase t x) (ey : IsPhase t y) (hn : ∀ z, x < z → z < y → ¬ IsPhase t z) :
    ∃ p : ℝ → ℝ, ∀ u, 0 < u → u < 2 * π → (x < p u ∧ p u < y ∧ IsPhase (t + u) (p u) ∧
      (∀ z, x < z → z < y → IsPhase (t + u) z → z = p u)) ∧ ∀ v, u < v → v < 2 * π → p u < p v := by
  have near : ∀ z ∈ Set.Icc x y, |centuries z| ≤ 20 := by
    intro z hz
    obtain ⟨a1, a2⟩ := abs_le.mp hx
    obtain ⟨b1, b2⟩ := abs_le.mp hy
    have m : ∀ {a b : ℝ}, a ≤ b → centuries a ≤ centuries b := by
      intro a b hab; unfold centuries; gcongr
    rw [abs_le]
    exact ⟨a1.trans (m hz.1), (m hz.2).trans b2⟩
  have cont := elong_continuousOn x y near
  have mono : ∀ a ∈ Set.Icc x y, ∀ b ∈ Set.Icc x y, a < b → elong a < elong b :=
    fun a ha b hb hab => elong_advance (near a ha) (near b hb) hab
  have mx : x ∈ Set.Icc x y := ⟨le_rfl, h.le⟩
  have my : y ∈ Set.Icc x y := ⟨h.le, le_rfl⟩
  rw [isPhase_iff] at ex ey
  have g := gained_turn ex ey (mono x mx y my h)
  have turn : elong y = elong x + 2 * π := by
    by_contra hne
    obtain ⟨z, hz, ez⟩ := intermediate_value_Icc h.le cont
      (show elong x + 2 * π ∈ Set.Icc (elong x) (elong y) from
        ⟨by linarith [Real.pi_pos], by linarith⟩)
    have zx : x < z := by
      rcases hz.1.lt_or_eq with q | q
      · exact q
      · subst q; linarith [Real.pi_pos]
    have zy : z < y := by
      rcases hz.2.lt_or_eq with q | q
      · exact q
      · subst q; exact absurd ez hne
    refine hn z zx zy ((isPhase_iff t z).mpr ?_)
    rw [ez]
    obtain ⟨k, e⟩ := ex
    exact ⟨k + 1, by rw [e]; push_cast; ring⟩
  have hex : ∀ u, ∃ z, 0 < u → u < 2 * π → x < z ∧ z < y ∧ elong z = elong x + u := by
    intro u
    by_cases hu : 0 < u ∧ u < 2 * π
    · obtain ⟨z, hz, ez⟩ := intermediate_value_Icc h.le cont
        (show elong x + u ∈ Set.Icc (elong x) (elong y) from ⟨by linarith, by linarith⟩)
      refine ⟨z, fun _ _ => ⟨?_, ?_, ez⟩⟩
      · rcases hz.1.lt_or_eq with q | q
        · exact q
        · subst q; linarith
      · rcases hz.2.lt_or_eq with q | q
        · exact q
        · subst q; linarith
    · exact ⟨0, fun a b => absurd ⟨a, b⟩ hu⟩
  choose p hp using hex
  refine ⟨p, fun u u0 u1 => ?_⟩
  obtain ⟨p1, p2, p3⟩ := hp u u0 u1
  have mp : p u ∈ Set.Icc x y := ⟨p1.le, p2.le⟩
  refine ⟨⟨p1, p2, ?_, ?_⟩, ?_⟩
  · rw [isPhase_iff, p3]
    exact congr_add ex (congr_refl u)
  · intro z z1 z2 hz
    rw [isPhase_iff] at hz
    have mz : z ∈ Set.Icc x y := ⟨z1.le, z2.le⟩
    have a1 := mono x mx z mz z1
    have a2 := mono z mz y my z2
    obtain ⟨j, ej⟩ := ex
    obtain ⟨k, ek⟩ := hz
    have d : elong z - (elong x + u) = ((k - j : ℤ) : ℝ) * (2 * π) := by rw [ej, ek]; push_cast; ring
    have pp := Real.pi_pos
    have k0 : k - j = 0 := by
      have l1 : ((-1 : ℤ) : ℝ) < ((k - j : ℤ) : ℝ) := by
        push_cast at d ⊢; nlinarith
      have l2 : ((k - j : ℤ) : ℝ) < ((1 : ℤ) : ℝ) := by
        push_cast at d ⊢; nlinarith
      have l1' : -1 < k - j := by exact_mod_cast l1
      have l2' : k - j < 1 := by exact_mod_cast l2
      omega
    rw [k0, Int.cast_zero, zero_mul] at d
    rcases lt_trichotomy z (p u) with q | q | q
    · have := mono z mz _ mp q; linarith
    · exact q
    · have := mono _ mp z mz q; linarith
  · intro v uv v1
    obtain ⟨q1, q2, q3⟩ := hp v (by linarith) v1
    have mq : p v ∈ Set.Icc x y := ⟨q1.le, q2.le⟩
    by_contra hc
    rcases (not_lt.mp hc).lt_or_eq with q | q
    · have := mono _ mq _ mp q; linarith
    · rw [q] at q3; linarith

/-- The hypotheses are met: any phase, from any of its occurrences to the next. -/
example (t : ℝ) : ∃ x y : ℝ, |centuries x| ≤ 20 ∧ |centuries y| ≤ 20 ∧ x < y ∧ IsPhase t x ∧
    IsPhase t y ∧ ∀ z, x < z → z < y → ¬ IsPhase t z := by
  have h1 : |centuries 2451545| ≤ 19.99 := by unfold centuries; rw [abs_le]; norm_num
  obtain ⟨x, a, b, c⟩ := moon_phase_exists t 2451545 h1
  have hx : |centuries x| ≤ 20 := centuries_near h1 (r := 31.6)
    (by rw [abs_of_nonneg (by linarith)]; linarith) (by norm_num)
  have hx2 : |centuries (x + 1)| ≤ 19.99 := by
    norm_num at b
    unfold centuries; rw [abs_le]
    constructor
    · rw [le_div_iff₀ (by norm_num)]; norm_num; linarith
    · rw [div_le_iff₀ (by norm_num)]; norm_num; linarith
  obtain ⟨y, a', b', c'⟩ := moon_phase_exists t (x + 1) hx2
  have near : ∀ z, x + 1 ≤ z → z ≤ x + 1 + 31.6 → |centuries z| ≤ 20 := fun z z1 z2 =>
    centuries_near hx2 (r := 31.6) (by rw [abs_of_nonneg (by linarith)]; linarith) (by norm_num)
  refine ⟨x, y, hx, near y a' b', by linarith, c, c', fun z z1 z2 hz => ?_⟩
  have hzc : |centuries z| ≤ 20 := centuries_near (y := z) hx2 (r := 32.6)
    (by rw [abs_le]; constructor <;> norm_num at b' ⊢ <;> linarith) (by norm_num)
  have g1 := moon_phase_apart t x z hx hzc z1 c hz
  have g2 := moon_phase_apart t z y hzc (near y a' b') z2 hz c'
  norm_num at g1 g2 b'
  linarith

/-! ### Latitude and distance -/

/-- C72: within 2000 years of J2000 the latitude changes by less than 1.44 degrees and the distance by
less than 7500 km a day. -/
theorem moon_rates (x y : ℝ) (hx : |centuries x| ≤ 20) (hy : |centuries y| ≤ 20) :
    |lunarLatitude x - lunarLatitude y| ≤ deg (1.44 * |x - y|) ∧
    |lunarRadius x - lunarRadius y| ≤ 7500 * |x - y| := by
  have n := abs_nonneg (x - y)
  constructor
  · have h1 := latSum_lip hx hy
    have h2 := latExtra_lip (T := centuries x) (U := centuries y) (by linarith) (by linarith)
    rw [centuries_sub] at h1 h2
    rw [lunarLatitude_eq, lunarLatitude_eq, deg_eq, deg_eq, ← deg_sub, abs_deg, deg_le]
    change |(latSum (centuries x) + latExtra (centuries x)) / 1000000 -
      (latSum (centuries y) + latExtra (centuries y)) / 1000000| ≤ _
    rw [← sub_div, abs_div, abs_of_pos (by norm_num : (0 : ℝ) < 1000000),
      div_le_iff₀ (by norm_num), add_sub_add_comm]
    refine (abs_add_le _ _).trans ((add_le_add h1 h2).trans ?_)
    norm_num
    linarith
  · have h1 := radSum_lip hx hy
    rw [centuries_sub] at h1
    rw [lunarRadius_eq, lunarRadius_eq, add_sub_add_left_eq_sub, ← sub_div, abs_div,
      abs_of_pos (by norm_num : (0 : ℝ) < 1000), div_le_iff₀ (by norm_num)]
    change |radSum (centuries x) - radSum (centuries y)| ≤ _
    refine h1.trans ?_
    norm_num
    linarith

/-- The first row of the table of latitude; the rest is smaller. -/
theorem latSum_main {T : ℝ} (hT : |T| ≤ 20) :
    |latSum T - 5128122 * sin (polyR kF T)| ≤ 970000 := by
  have h : Data.lunarB = (0, 0, 0, 1, 5128122) :: Data.lunarB.tail := by decide +kernel
  have e : latSum T = 5128122 * sin (polyR kF T) +
      (Data.lunarB.tail.map fun r : BRow => (r.2.2.2.2 : ℝ) *
        lunarFactor (lunarConstants T) r.2.1 *
        sin (lunarArg T r.1 r.2.1 r.2.2.1 r.2.2.2.1)).sum := by
    unfold latSum
    conv_lhs => rw [h]
    rw [List.map_cons, List.sum_cons]
    have f : lunarFactor (lunarConstants T) 0 = 1 := by unfold lunarFactor; simp
    have g : lunarArg T 0 0 0 1 = polyR kF T := by unfold lunarArg; simp
    simp only [f, g]
    norm_num
  rw [e, add_sub_cancel_left]
  refine (lunar_sum_abs Data.lunarB.tail (fun r : BRow => r.2.2.2.2) (fun r => r.2.1)
    (fun r => sin (lunarArg T r.1 r.2.1 r.2.2.1 r.2.2.2.1)) hT fun _ => abs_sin_le_one _).trans ?_
  refine (nat_div_le (m := 9700000000) (by decide +kernel)).trans (by norm_num)

theorem radSum_main {T : ℝ} (hT : |T| ≤ 20) :
    |radSum T - -20905355 * cos (polyR kM1 T)| ≤ 8900000 := by
  have h : Data.lunarLR = (0, 0, 1, 0, 6288774, -20905355) :: Data.lunarLR.tail := by decide +kernel
  have e : radSum T = -20905355 * cos (polyR kM1 T) +
      (Data.lunarLR.tail.map fun r : LRow => (r.2.2.2.2.2 : ℝ) *
        lunarFactor (lunarConstants T) r.2.1 *
        cos (lunarArg T r.1 r.2.1 r.2.2.1 r.2.2.2.1)).sum := by
    unfold radSum
    conv_lhs => rw [h]
    rw [List.map_cons, List.sum_cons]
    have f : lunarFactor (lunarConstants T) 0 = 1 := by unfold lunarFactor; simp
    have g : lunarArg T 0 0 1 0 = polyR kM1 T := by unfold lunarArg; simp
    simp only [f, g]
    norm_num
  rw [e, add_sub_cancel_left]
  refine (lunar_sum_abs Data.lunarLR.tail (fun r : LRow => r.2.2.2.2.2) (fun r => r.2.1)
    (fun r => cos (lunarArg T r.1 r.2.1 r.2.2.1 r.2.2.2.1)) hT fun _ => abs_cos_le_one _).trans ?_
  refine (nat_div_le (m := 89000000000) (by decide +kernel)).trans (by norm_num)

/-- A mean argument takes every angle within its period. -/
theorem mean_takes {f : ℝ → ℝ} {n jd r : ℝ} (h : |centuries jd| ≤ 19.99) (hr0 : 0 ≤ r) (hr : r ≤ 300)
    (hf : ∀ x y, |centuries x| ≤ 20 → |centuries y| ≤ 20 →
      |f (centuries x) - f (centuries y) - dToR n * (centuries x - centuries y)| ≤
        dToR 2 * |centuries x - centuries y|)
    (hn : 360 * 36525 ≤ (n - 2) * r) (t : ℝ) :
    ∃ y, jd ≤ y ∧ y ≤ jd + r ∧ |centuries y| ≤ 20 ∧ Congr (2 * π) (f (centuries y)) t := by
  have near : ∀ x ∈ Set.Icc jd (jd + r), |centuries x| ≤ 20 := by
    intro x hx
    refine centuries_near h (r := r) ?_ hr
    rw [abs_of_nonneg (by linarith [hx.1])]; linarith [hx.2]
  have l : jd ≤ jd + r := by linarith
  have rate : ∀ x ∈ Set.Icc jd (jd + r), ∀ y ∈ Set.Icc jd (jd + r),
      |f (centuries x) - f (centuries y) - deg (n / 36525 * (x - y))| ≤ deg (2 / 36525 * |x - y|) := by
    intro x hx y hy
    have := hf x y (near x hx) (near y hy)
    rw [centuries_sub, show centuries x - centuries y = (x - y) / 36525 by unfold centuries; ring,
      show dToR n * ((x - y) / 36525) = deg (n / 36525 * (x - y)) by unfold dToR deg; ring,
      show dToR 2 * (|x - y| / 36525) = deg (2 / 36525 * |x - y|) by unfold dToR deg; ring] at this
    exact this
  have m := (abs_le.mp (rate (jd + r) ⟨l, le_rfl⟩ jd ⟨le_rfl, l⟩)).1
  rw [show jd + r - jd = r by ring, abs_of_nonneg hr0] at m
  obtain ⟨y, h1, h2, c⟩ := takes_every_angle l (f := fun x => f (centuries x))
    (continuousOn_of_rate (c := n / 36525) (d := 2 / 36525) (by norm_num) rate) (by
    rw [two_pi_deg]
    have : deg 360 ≤ deg (n / 36525 * r) - deg (2 / 36525 * r) := by
      rw [← deg_sub, deg_le, ← sub_mul, ← sub_div, div_mul_eq_mul_div, le_div_iff₀ (by norm_num)]
      linarith
    linarith) t
  exact ⟨y, h1, h2, near y ⟨h1, h2⟩, c⟩

/-- C72: in every 27.3 days the Moon is at least once more than 4.1 degrees north of the ecliptic, at
least once more than 4.1 degrees south of it, and at least once on it. -/
theorem moon_nodes (jd : ℝ) (h : |centuries jd| ≤ 19.99) :
    (∃ y, jd ≤ y ∧ y ≤ jd + 27.3 ∧ deg 4.1 < lunarLatitude y) ∧
    (∃ y, jd ≤ y ∧ y ≤ jd + 27.3 ∧ lunarLatitude y < -deg 4.1) ∧
    ∃ y, jd ≤ y ∧ y ≤ jd + 27.3 ∧ lunarLatitude y = 0 := by
  have tk := fun t => mean_takes (f := polyR kF) (n := 483202) h (r := 27.3) (by norm_num) (by norm_num)
    (fun x y hx hy => (args_rate (T := centuries x) (U := centuries y) (by linarith)
      (by linarith)).2.2.2.1) (by norm_num) t
  have eq : ∀ y, lunarLatitude y = deg ((latSum (centuries y) + latExtra (centuries y)) / 1000000) := by
    intro y; rw [lunarLatitude_eq, deg_eq]; rfl
  obtain ⟨y, y1, y2, y3, y4⟩ := tk (π / 2)
  obtain ⟨z, z1, z2, z3, z4⟩ := tk (-(π / 2))
  have hy : deg 4.1 < lunarLatitude y := by
    have a := abs_le.mp (latSum_main y3)
    have b := abs_le.mp (latExtra_abs (centuries y))
    rw [sin_congr y4, sin_pi_div_two] at a
    rw [eq, deg_lt]
    norm_num; linarith [a.1, b.1]
  have hz : lunarLatitude z < -deg 4.1 := by
    have a := abs_le.mp (latSum_main z3)
    have b := abs_le.mp (latExtra_abs (centuries z))
    rw [sin_congr z4, sin_neg, sin_pi_div_two] at a
    rw [eq, ← deg_neg, deg_lt]
    norm_num; linarith [a.2, b.2]
  refine ⟨⟨y, y1, y2, hy⟩, ⟨z, z1, z2, hz⟩, ?_⟩
  have p : 0 < deg 4.1 := by rw [← show deg 0 = 0 by unfold deg; ring, deg_lt]; norm_num
  have near : ∀ x ∈ Set.uIcc y z, jd ≤ x ∧ x ≤ jd + 27.3 ∧ |centuries x| ≤ 20 := by
    intro x hx
    rw [Set.mem_uIcc] at hx
    have : jd ≤ x ∧ x ≤ jd + 27.3 := by
      rcases hx with ⟨a, b⟩ | ⟨a, b⟩ <;> constructor <;> linarith
    refine ⟨this.1, this.2, centuries_near h (r := 27.3) ?_ (by norm_num)⟩
    rw [abs_of_nonneg (by linarith [this.1])]; linarith [this.2]
  have cont : ContinuousOn lunarLatitude (Set.uIcc y z) := by
    refine continuousOn_of_rate (c := 0) (d := 1.44) (by norm_num) fun a ha b hb => ?_
    have := (moon_rates a b (near a ha).2.2 (near b hb).2.2).1
    rwa [zero_mul, show deg 0 = 0 by unfold deg; ring, sub_zero]
  obtain ⟨x, hx, e⟩ := intermediate_value_uIcc cont
    (show (0 : ℝ) ∈ Set.uIcc (lunarLatitude y) (lunarLatitude z) by
      rw [Set.mem_uIcc]; right; constructor <;> linarith)
  exact ⟨x, (near x hx).1, (near x hx).2.1, e⟩

/-- C72: in every 27.6 days the Moon is at least once nearer than 373100 km and at least once further
than 396900 km. -/
theorem moon_apsides (jd : ℝ) (h : |centuries jd| ≤ 19.99) :
    (∃ y, jd ≤ y ∧ y ≤ jd + 27.6 ∧ lunarRadius y < 373100) ∧
    ∃ y, jd ≤ y ∧ y ≤ jd + 27.6 ∧ 396900 < lunarRadius y := by
  have tk := fun t => mean_takes (f := polyR kM1) (n := 477199) h (r := 27.6) (by norm_num)
    (by norm_num) (fun x y hx hy => (args_rate (T := centuries x) (U := centuries y) (by linarith)
      (by linarith)).2.2.1) (by norm_num) t
  have eq : ∀ y, lunarRadius y = 385000.56 + radSum (centuries y) / 1000 := lunarRadius_eq
  obtain ⟨y, y1, y2, y3, y4⟩ := tk 0
  obtain ⟨z, z1, z2, z3, z4⟩ := tk π
  have a := abs_le.mp (radSum_main y3)
  have b := abs_le.mp (radSum_main z3)
  rw [cos_congr y4, cos_zero] at a
  rw [cos_congr z4, cos_pi] at b
  refine ⟨⟨y, y1, y2, ?_⟩, ⟨z, z1, z2, ?_⟩⟩
  · rw [eq]; norm_num; linarith [a.2]
  · rw [eq]; norm_num; linarith [b.1]

end Verif

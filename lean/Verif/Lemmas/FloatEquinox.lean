import Verif.Lemmas.FloatSun
import Verif.Props.Equinox

/-!
# The loop of `equinox` in binary64
-/

namespace Verif
open Real

/-- The difference of two angles in binary64. -/
theorem diffAngleF_near {fl : ℚ → ℚ} (hf : FloatLike fl) {Y C : ℚ} {y c e : ℝ} (hY : 0 ≤ Y ∧ Y ≤ pi2F)
    (nY : NearA Y y e) (hC : 0 ≤ C ∧ C ≤ 5) (nC : Near C c 1e-15) :
    |(diffAngleF fl Y C : ℝ)| ≤ π + 1e-13 ∧ NearA (diffAngleF fl Y C) (c - y) (e + 1e-13) := by
  obtain ⟨k, nY⟩ := nY
  have y0 : (0 : ℝ) ≤ Y := by exact_mod_cast hY.1
  have y1 : (Y : ℝ) ≤ pi2F := by exact_mod_cast hY.2
  have c0 : (0 : ℝ) ≤ C := by exact_mod_cast hC.1
  have c1 : (C : ℝ) ≤ 5 := by exact_mod_cast hC.2
  have p2 := pi2F_near
  have p2' := pi2F_lt
  have p1 := piF_near
  have p3 := Real.pi_gt_three
  have key : ∃ (r : ℚ) (j : ℤ), (if C < Y then fl (fl (C + pi2F) - Y) else fl (C - Y)) = r ∧
      |(r : ℝ) - (C - Y + j * (2 * π))| ≤ 1e-14 ∧ -1e-14 ≤ (r : ℝ) ∧ (r : ℝ) ≤ 2 * π + 1e-14 := by
    split_ifs with h
    · have h' : (C : ℝ) < Y := by exact_mod_cast h
      have n1 : Near (C + pi2F) ((C : ℝ) + 2 * π) 2.5e-16 := by
        unfold Near; push_cast
        rw [show (C : ℝ) + pi2F - (C + 2 * π) = pi2F - 2 * π by ring]; exact p2
      have a1 : |(C : ℝ) + 2 * π| ≤ 12 := by
        rw [abs_of_nonneg (by positivity)]
        have := pi_lt_d2; norm_num at this ⊢; linarith
      have n2 := (n1.fl hf a1).sub (near_self Y)
      have a2 : |(C : ℝ) + 2 * π - Y| ≤ 7 := by
        have := pi_lt_d2
        rw [abs_le]; norm_num at this p2' ⊢; constructor <;> linarith
      have n3 := n2.rnd hf a2 (e' := 1e-14) (by rw [uuR, wwR]; norm_num)
      refine ⟨_, 1, rfl, ?_, ?_, ?_⟩
      · unfold Near at n3
        refine le_trans (le_of_eq ?_) n3
        congr 1; push_cast; ring
      · have f0 : (0 : ℚ) ≤ fl (fl (C + pi2F) - Y) := by
          apply hf.fl_nonneg
          have m : fl pi2F ≤ fl (C + pi2F) := hf.mono (by linarith [hC.1])
          rw [hf.fix _ pi2F_f64] at m
          linarith [hY.2]
        have : (0 : ℝ) ≤ fl (fl (C + pi2F) - Y) := by exact_mod_cast f0
        norm_num; linarith
      · have := (abs_le.mp n3).2
        norm_num at this ⊢; linarith
    · have h' : (Y : ℝ) ≤ C := by exact_mod_cast not_lt.mp h
      have n1 : Near (C - Y) ((C : ℝ) - Y) 0 := by simp [Near]
      have a1 : |(C : ℝ) - Y| ≤ 5 := by rw [abs_of_nonneg (by linarith)]; linarith
      have n3 := n1.rnd hf a1 (e' := 1e-14) (by rw [uuR, wwR]; norm_num)
      refine ⟨_, 0, rfl, ?_, ?_, ?_⟩
      · unfold Near at n3
        simpa using n3
      · have := (abs_le.mp n3).1
        norm_num at this ⊢; linarith
      · have := (abs_le.mp n3).2
        norm_num at this ⊢; linarith
  obtain ⟨r, j, er, r1, r2, r3⟩ := key
  have fin : ∀ (d : ℝ) (i : ℤ), |d - (C - Y + i * (2 * π))| ≤ 5e-14 → |d - (c - y + (i - k : ℤ) * (2 * π))| ≤ e + 1e-13 := by
    intro d i hd
    unfold Near at nC nY
    have e1 : d - (c - y + (i - k : ℤ) * (2 * π)) = (d - (C - Y + i * (2 * π))) + (C - c) - (Y - (y + k * (2 * π))) := by
      push_cast; ring
    rw [e1]
    refine (abs_sub _ _).trans ?_
    have := abs_add_le (d - (C - Y + i * (2 * π))) (C - c)
    norm_num at hd nC ⊢; linarith
  unfold diffAngleF
  simp only
  rw [er]
  split_ifs with h
  · have h' : (piF : ℝ) < r := by exact_mod_cast h
    have n1 : Near (r - pi2F) ((r : ℝ) - 2 * π) 2.5e-16 := by
      unfold Near; push_cast
      rw [show (r : ℝ) - pi2F - (r - 2 * π) = -(pi2F - 2 * π) by ring, abs_neg]; exact p2
    have pl := (abs_le.mp p1).1
    have a1 : |(r : ℝ) - 2 * π| ≤ π + 1e-14 := by
      rw [abs_le]; norm_num at r3 pl ⊢; constructor <;> linarith
    have a2 : |(r : ℝ) - 2 * π| ≤ 4 := by
      have := pi_lt_d2; norm_num at a1 this ⊢; linarith
    have n2 := n1.rnd hf a2 (e' := 1e-14) (by rw [uuR, wwR]; norm_num)
    constructor
    · have := n2.abs a1
      norm_num at this ⊢; linarith
    · refine ⟨j - 1 - k, ?_⟩
      refine fin _ (j - 1) ?_
      unfold Near at n2
      have := abs_sub_le (fl (r - pi2F) : ℝ) (r - 2 * π) (C - Y + (j - 1 : ℤ) * (2 * π))
      have e2 : (r : ℝ) - 2 * π - (C - Y + (j - 1 : ℤ) * (2 * π)) = r - (C - Y + j * (2 * π)) := by push_cast; ring
      rw [e2] at this
      norm_num at this n2 r1 ⊢; linarith
  · have h' : (r : ℝ) ≤ piF := by exact_mod_cast not_lt.mp h
    have pl := (abs_le.mp p1).2
    constructor
    · rw [abs_le]; norm_num at r2 pl ⊢; constructor <;> linarith
    · exact ⟨j - k, fin _ j (r1.trans (by norm_num))⟩

theorem kSunMotion_bounds : 58 ≤ kSunMotion ∧ kSunMotion ≤ 58.2 := by
  rw [kSunMotion_eq, div_le_iff₀ (by positivity), le_div_iff₀ (by positivity)]
  have := Real.pi_gt_d4
  have := Real.pi_lt_d4
  norm_num at *; constructor <;> linarith

theorem kSunMotionF_near {fl : ℚ → ℚ} (hf : FloatLike fl) : Near (kSunMotionF fl) kSunMotion 2e-14 := by
  have p2 : Near pi2F (2 * π) 2.5e-16 := pi2F_near
  obtain ⟨k1, k2⟩ := kSunMotion_bounds
  have hk : (((365.25 : ℚ) : ℝ)) / (2 * π) = kSunMotion := by unfold kSunMotion pi2; push_cast; rfl
  have a : |((365.25 : ℚ) : ℝ) / (2 * π)| ≤ 58.2 := by
    rw [hk, abs_of_nonneg (by linarith)]; exact k2
  have n := ((near_self (365.25 : ℚ)).div p2 (m := 6.28) (by norm_num) (by unfold pi2F; norm_num) (by positivity)
    a).rnd hf a (e' := 2e-14) (by rw [uuR, wwR]; norm_num)
  rw [hk] at n
  exact n

/-- One pass of the loop near an event. -/
theorem equinox_passF {fl : ℚ → ℚ} (hf : FloatLike fl) {jd d : ℚ} {x e : ℝ} (hx : |millennia x| ≤ 6)
    (hj : |millennia jd| ≤ 6) (hd : |(d : ℝ)| ≤ π + 1e-13)
    (nd : |(d : ℝ) - (sunLambda x - sunLambda jd)| ≤ e) :
    |(fl (jd + fl (d * kSunMotionF fl)) : ℝ) - x| ≤ 0.053 * |(jd : ℝ) - x| + (58.2 * e + 5.3e-10) := by
  obtain ⟨k1, k2⟩ := kSunMotion_bounds
  have kn := kSunMotionF_near hf
  have c := sun_contract hj hx
  have d4 : |(d : ℝ)| ≤ 3.1416 := hd.trans (by have := Real.pi_lt_d6; norm_num at this ⊢; linarith)
  have ka : |kSunMotion| ≤ 58.2 := by rw [abs_of_nonneg (by linarith)]; exact k2
  have a1 : |(d : ℝ) * kSunMotion| ≤ 183 := by
    rw [abs_mul]; exact (mul_le_mul d4 ka (abs_nonneg _) (by norm_num)).trans (by norm_num)
  have n1 := ((near_self d).mul kn d4 ka).rnd hf a1 (e' := 1e-13) (by rw [uuR, wwR]; norm_num)
  have j1 : |(jd : ℝ)| ≤ 4700000 := by
    unfold millennia at hj
    rw [abs_div, abs_of_pos (by norm_num : (0 : ℝ) < 365250), div_le_iff₀ (by norm_num)] at hj
    have := abs_add_le ((jd : ℝ) - 2451545) 2451545
    rw [sub_add_cancel, abs_of_pos (by norm_num : (0 : ℝ) < 2451545)] at this
    linarith
  have a2 : |(jd : ℝ) + d * kSunMotion| ≤ 4700183 := (abs_add_le _ _).trans (by linarith)
  have n2 := ((near_self jd).add n1).rnd hf a2 (e' := 5.3e-10) (by rw [uuR, wwR]; norm_num)
  unfold Near at n2
  have e1 : (fl (jd + fl (d * kSunMotionF fl)) : ℝ) - x =
      ((fl (jd + fl (d * kSunMotionF fl)) : ℝ) - (jd + d * kSunMotion)) +
      -(kSunMotion * (sunLambda jd - sunLambda x) - (jd - x)) +
      kSunMotion * (d - (sunLambda x - sunLambda jd)) := by ring
  rw [e1]
  refine (abs_add_le _ _).trans ?_
  have s1 := abs_add_le ((fl (jd + fl (d * kSunMotionF fl)) : ℝ) - (jd + d * kSunMotion))
    (-(kSunMotion * (sunLambda jd - sunLambda x) - (jd - x)))
  rw [abs_neg] at s1
  have s2 : |kSunMotion * (d - (sunLambda x - sunLambda jd))| ≤ 58.2 * e := by
    rw [abs_mul]; exact mul_le_mul ka nd (abs_nonneg _) (by norm_num)
  linarith

/-- Near an event the difference of the angles is the right one. -/
theorem diff_smallF {fl : ℚ → ℚ} (hf : FloatLike fl) {jd Y C : ℚ} {x circ e : ℝ} (h0 : 0 ≤ circ) (h1 : circ < 2 * π)
    (ex : IsEvent circ x) (hx : |millennia x| ≤ 6) (hj : |millennia jd| ≤ 6) (hn : |(jd : ℝ) - x| ≤ 100)
    (he : e ≤ 1e-6) (hY : 0 ≤ Y ∧ Y ≤ pi2F) (nY : NearA Y (sunLambda jd) e) (hC : 0 ≤ C ∧ C ≤ 5)
    (nC : Near C circ 1e-15) :
    |(diffAngleF fl Y C : ℝ) - (sunLambda x - sunLambda jd)| ≤ e + 1e-13 := by
  obtain ⟨r, k, n⟩ := diffAngleF_near hf hY nY hC nC
  obtain ⟨m, em⟩ := (isEvent_iff h0 h1).mp ex
  have c := sun_contract hj hx
  obtain ⟨k1, k2⟩ := kSunMotion_bounds
  have c2 := abs_add_le (kSunMotion * (sunLambda jd - sunLambda x) - (jd - x)) (jd - x)
  rw [sub_add_cancel, abs_mul, abs_of_nonneg (by linarith : (0:ℝ) ≤ kSunMotion)] at c2
  have s : |sunLambda x - sunLambda jd| ≤ 1.9 := by
    rw [abs_sub_comm]
    have := mul_le_mul_of_nonneg_right k1 (abs_nonneg (sunLambda jd - sunLambda x))
    norm_num at c c2 this ⊢; linarith
  have pp := Real.pi_gt_three
  unfold Near at n
  have e1 : circ - sunLambda jd + k * (2 * π) = sunLambda x - sunLambda jd + (k - m : ℤ) * (2 * π) := by
    rw [em]; push_cast; ring
  rw [e1] at n
  have z : k - m = 0 := by
    generalize k - m = i at *
    by_contra hi
    have one : (1 : ℝ) ≤ |(i : ℝ)| := by exact_mod_cast Int.one_le_abs hi
    have t : |(i : ℝ) * (2 * π)| ≤ |(diffAngleF fl Y C : ℝ)| + |sunLambda x - sunLambda jd| + (e + 1e-13) := by
      have e2 : (i : ℝ) * (2 * π) = (diffAngleF fl Y C : ℝ) - (sunLambda x - sunLambda jd) -
        ((diffAngleF fl Y C : ℝ) - (sunLambda x - sunLambda jd + i * (2 * π))) := by ring
      rw [e2]
      exact (abs_sub _ _).trans (add_le_add (abs_sub _ _) n)
    rw [abs_mul, abs_of_pos (by positivity : 0 < 2 * π)] at t
    have := mul_le_mul_of_nonneg_right one (by positivity : 0 ≤ 2 * π)
    norm_num at t r s he this; linarith
  rw [z] at n
  simpa using n

/-- The rounded difference decides the end of the loop. -/
theorem step_abs {fl : ℚ → ℚ} (hf : FloatLike fl) (z : ℚ) :
    |(fl z : ℝ)| ≤ 1.00001 * |(z : ℝ)| + 1e-40 ∧ |(z : ℝ)| ≤ 1.00001 * |(fl z : ℝ)| + 1e-40 := by
  have r := hf.errR z
  have a := abs_sub_abs_le_abs_sub (fl z : ℝ) z
  have b := abs_sub_abs_le_abs_sub (z : ℝ) (fl z)
  rw [abs_sub_comm] at b
  rw [uuR, wwR] at r
  have := abs_nonneg (z : ℝ)
  norm_num at r ⊢
  constructor <;> linarith

theorem equinoxLoopF_step {fl : ℚ → ℚ} {lib : NumLib} {C delta jd Y : ℚ} {n : ℕ}
    (h : apparentSunF fl lib jd = .ok Y) :
    equinoxLoopF fl lib C delta (n + 1) jd =
      if |fl (fl (jd + fl (diffAngleF fl Y C * kSunMotionF fl)) - jd)| < delta
      then .ok (fl (jd + fl (diffAngleF fl Y C * kSunMotionF fl)))
      else equinoxLoopF fl lib C delta n (fl (jd + fl (diffAngleF fl Y C * kSunMotionF fl))) := by
  conv_lhs => rw [equinoxLoopF, h]
  rfl

/-- The loop, once the event is chosen.  `e` is the error of the apparent longitude. -/
theorem equinox_loopF {fl : ℚ → ℚ} (hf : FloatLike fl) {lib : NumLib} {T e : ℝ} (hT6 : T ≤ 6) (he0 : 0 ≤ e) (he : e ≤ 1e-6)
    (app : ∀ jd : ℚ, |millennia jd| ≤ T → ∃ Y, apparentSunF fl lib jd = .ok Y ∧ (0 ≤ Y ∧ Y ≤ pi2F) ∧
      NearA Y (sunLambda jd) e)
    {circ x : ℝ} {C delta : ℚ} (h0 : 0 ≤ circ) (h1 : circ < 2 * π) (hC : 0 ≤ C ∧ C ≤ 5) (nC : Near C circ 1e-15)
    (ex : IsEvent circ x) (hx : |millennia x| ≤ T - 0.01) {η : ℝ} (hη : η = 58.2 * (e + 1e-13) + 5.3e-10) (n : ℕ) :
    ∀ (jd : ℚ) (a : ℝ), |(jd : ℝ) - x| ≤ 193.1 →
      (∀ Y, apparentSunF fl lib jd = .ok Y → |(diffAngleF fl Y C : ℝ) - (sunLambda x - sunLambda jd)| ≤ e + 1e-13) →
      0 ≤ a → |(jd : ℝ) - x| ≤ a + η / 0.947 →
      1.0532 * (0.053 ^ n * a + η / 0.947) + 1.001 * η + 1e-30 < delta →
      ∃ t, equinoxLoopF fl lib C delta (n + 1) jd = .ok t ∧ |(t : ℝ) - x| ≤ 0.056 * delta + 1.06 * η := by
  have η0 : 0 < η := by rw [hη]; norm_num; linarith
  have near : ∀ y, |y - x| ≤ 193.1 → |millennia y| ≤ T := by
    intro y hy
    have e1 : millennia y = millennia x + (y - x) / 365250 := by unfold millennia; ring
    rw [e1]
    refine (abs_add_le _ _).trans ?_
    rw [abs_div, abs_of_pos (by norm_num : (0 : ℝ) < 365250)]
    have : |y - x| / 365250 ≤ 0.01 := by rw [div_le_iff₀ (by norm_num)]; norm_num at hy ⊢; linarith
    norm_num at hx this ⊢; linarith
  have x6 : |millennia x| ≤ 6 := by norm_num at hx; linarith
  have η1 : η ≤ 0.0001 := by rw [hη]; norm_num at he ⊢; linarith
  induction n with
  | zero =>
    intro jd a hj hd ha hja hl
    obtain ⟨Y, eY, rY, nY⟩ := app jd (near jd hj)
    have j6 : |millennia jd| ≤ 6 := (near jd hj).trans hT6
    have p := equinox_passF hf x6 j6 (diffAngleF_near hf rY nY hC nC).1 (hd Y eY)
    rw [← hη] at p
    rw [equinoxLoopF_step eY]
    generalize fl (jd + fl (diffAngleF fl Y C * kSunMotionF fl)) = jd' at *
    obtain ⟨z1, z2⟩ := step_abs hf (jd' - jd)
    push_cast at z1 z2
    have s1 := abs_sub_le (jd' : ℝ) x jd
    rw [abs_sub_comm x jd] at s1
    have s2 := abs_sub_le (jd : ℝ) jd' x
    rw [abs_sub_comm (jd : ℝ) jd'] at s2
    rw [pow_zero, one_mul] at hl
    have conv : |(fl (jd' - jd) : ℝ)| < delta := by
      refine lt_of_le_of_lt ?_ hl
      norm_num at z1 p hja η1 ⊢
      linarith
    have conv' : |fl (jd' - jd)| < delta := by exact_mod_cast conv
    refine ⟨jd', if_pos conv', ?_⟩
    norm_num at z2 p ⊢
    linarith
  | succ n ih =>
    intro jd a hj hd ha hja hl
    obtain ⟨Y, eY, rY, nY⟩ := app jd (near jd hj)
    have j6 : |millennia jd| ≤ 6 := (near jd hj).trans hT6
    have p := equinox_passF hf x6 j6 (diffAngleF_near hf rY nY hC nC).1 (hd Y eY)
    rw [← hη] at p
    rw [equinoxLoopF_step eY]
    generalize fl (jd + fl (diffAngleF fl Y C * kSunMotionF fl)) = jd' at *
    obtain ⟨z1, z2⟩ := step_abs hf (jd' - jd)
    push_cast at z1 z2
    have s2 := abs_sub_le (jd : ℝ) jd' x
    rw [abs_sub_comm (jd : ℝ) jd'] at s2
    split_ifs with c
    · refine ⟨jd', rfl, ?_⟩
      have c' : |(fl (jd' - jd) : ℝ)| < delta := by exact_mod_cast c
      norm_num at z2 p ⊢
      linarith
    · have small : |(jd' : ℝ) - x| ≤ 100 := by norm_num at p hj η1 ⊢; linarith
      have j' : |(jd' : ℝ) - x| ≤ 193.1 := by norm_num; linarith
      refine ih jd' (0.053 * a) j' ?_ (by positivity) ?_ ?_
      · intro Y' eY'
        obtain ⟨Y'', e1, r1, n1⟩ := app jd' (near jd' j')
        rw [eY', Except.ok.injEq] at e1
        subst e1
        exact diff_smallF hf h0 h1 ex x6 ((near jd' j').trans hT6) small he r1 n1 hC nC
      · norm_num at p hja ⊢; linarith
      · refine lt_of_eq_of_lt ?_ hl
        rw [pow_succ]; ring

end Verif

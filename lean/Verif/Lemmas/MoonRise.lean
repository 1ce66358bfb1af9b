import Verif.Props.MoonMotion
import Verif.Lemmas.MoonDayPlace
import Verif.Lemmas.SunDay
import Verif.Props.CronusTransits

/-!
# Lemmas: days on which `rise` raises for the Moon
-/

namespace Verif
open Real

noncomputable section

/-- A sequence that starts below `c`, increases by at most `s` at each step and ends above `c` comes to within `s` of `c`. -/
theorem crossing {f : ℕ → ℝ} {c s : ℝ} {N : ℕ} (h0 : f 0 ≤ c) (hs : 0 ≤ s) (hN : c ≤ f N)
    (step : ∀ k < N, f (k + 1) ≤ f k + s) : ∃ k ≤ N, c ≤ f k ∧ f k ≤ c + s := by
  induction N with
  | zero => exact ⟨0, le_refl _, hN, by linarith⟩
  | succ n ih =>
    by_cases h : c ≤ f n
    · obtain ⟨k, k1, k2⟩ := ih h fun k hk => step k (by omega)
      exact ⟨k, by omega, k2⟩
    · exact ⟨n + 1, le_refl _, hN, by have := step n (by omega); push Not at h; linarith⟩

/-- The sidereal time at Greenwich on the days after `a`, in radians, without the whole turns. -/
theorem sidereal_days {a : ℝ} (h : |a - 2451545| ≤ 1000000) : ∃ g : ℕ → ℝ, g 0 = siderealTimeGreenwich a ∧
    (∀ k < 50000, 0.0172 ≤ g (k + 1) - g k ∧ g (k + 1) - g k ≤ 0.01721) ∧
    ∀ k : ℕ, Congr (2 * π) (siderealTimeGreenwich (a + k)) (g k) := by
  have hp := Real.pi_gt_d6
  have hp' := Real.pi_lt_d6
  refine ⟨fun k => (gmstDegrees (a + k) - gmstDegrees a) * (π / 180) - k * (2 * π) + siderealTimeGreenwich a,
    by simp, fun k hk => ?_, fun k => ?_⟩
  · have hk' : (k : ℝ) < 50000 := by exact_mod_cast hk
    have hk0 : (0 : ℝ) ≤ k := Nat.cast_nonneg k
    have u := gmst_uniform (jd := a + k) (m := 1) (by rw [abs_le] at h ⊢; constructor <;> linarith) (by norm_num)
    rw [abs_le] at u
    push_cast
    rw [show a + ((k : ℝ) + 1) = a + k + 1 by ring]
    generalize gmstDegrees (a + k + 1) = G1 at *
    generalize gmstDegrees (a + k) = G0 at *
    rw [show (G1 - gmstDegrees a) * (π / 180) - ((k : ℝ) + 1) * (2 * π) + siderealTimeGreenwich a -
      ((G0 - gmstDegrees a) * (π / 180) - k * (2 * π) + siderealTimeGreenwich a) = (G1 - G0 - 360) * (π / 180) by ring]
    norm_num at u hp hp' ⊢
    constructor
    · nlinarith [u.1]
    · nlinarith [u.2]
  · obtain ⟨-, -, j, hj⟩ := sidereal_time_spec (a + k)
    obtain ⟨-, -, i, hi⟩ := sidereal_time_spec a
    exact ⟨j - i + k, by push_cast; rw [hj, hi]; ring⟩

/-- Within 366 days of any day begin 35 days on which the sidereal time at Greenwich is at least 5.53. -/
theorem sidereal_window {a : ℝ} (h : |a - 2451545| ≤ 1000000) : ∃ k ≤ 366, ∀ j ≤ 34,
    5.53 ≤ siderealTimeGreenwich (a + (k + j : ℕ)) := by
  obtain ⟨g, g0, gs, gc⟩ := sidereal_days h
  obtain ⟨t0, t1, -⟩ := sidereal_time_spec a
  have hp := Real.pi_gt_d4
  have hp' := Real.pi_lt_d4
  rw [← g0] at t0 t1
  have low : ∀ n : ℕ, n ≤ 400 → ∀ k : ℕ, k ≤ 400 → g k + 0.0172 * n ≤ g (k + n) ∧ g (k + n) ≤ g k + 0.01721 * n := by
    intro n
    induction n with
    | zero => intro _ k _; simp
    | succ n ih =>
      intro hn k hk
      obtain ⟨a1, a2⟩ := ih (by omega) k hk
      obtain ⟨b1, b2⟩ := gs (k + n) (by omega)
      rw [← add_assoc]
      push_cast
      constructor <;> linarith
  obtain ⟨i, hi⟩ : ∃ i : ℤ, g 0 ≤ 5.53 + i * (2 * π) ∧ 5.53 + i * (2 * π) ≤ g 0 + 2 * π := by
    by_cases c : g 0 ≤ 5.53
    · exact ⟨0, by simpa using c, by norm_num at hp ⊢; linarith⟩
    · push Not at c
      exact ⟨1, by push_cast; norm_num at hp hp' ⊢; linarith, by push_cast; norm_num at hp hp' ⊢; linarith⟩
  obtain ⟨hi1, hi2⟩ := hi
  have e := (low 366 (by omega) 0 (by omega)).1
  rw [zero_add] at e
  obtain ⟨k, k1, k2, k3⟩ := crossing (f := g) (c := 5.53 + i * (2 * π)) (s := 0.01721) (N := 366) hi1 (by norm_num)
    (by push_cast at e; norm_num at e hp hp' hi2 ⊢; linarith) (fun k hk => by linarith [(gs k (by omega)).2])
  refine ⟨k, k1, fun j hj => ?_⟩
  obtain ⟨l1, l2⟩ := low j (by omega) k (by omega)
  have j' : (j : ℝ) ≤ 34 := by exact_mod_cast hj
  have j0 : (0 : ℝ) ≤ j := Nat.cast_nonneg j
  obtain ⟨q, hq⟩ := gc (k + j)
  obtain ⟨s0, s1, -⟩ := sidereal_time_spec (a + (k + j : ℕ))
  generalize siderealTimeGreenwich (a + (k + j : ℕ)) = S at *
  generalize g (k + j) = G at *
  have qi : q = -i := by
    have b0 : ((q + i : ℤ) : ℝ) * (2 * π) = S - (G - i * (2 * π)) := by push_cast; linarith
    have b1 : ((q + i : ℤ) : ℝ) * (2 * π) < 1 * (2 * π) := by
      rw [b0]; norm_num at hp hp' k3 k2 l2 l1 ⊢; linarith
    have b2 : (-1 : ℝ) * (2 * π) < ((q + i : ℤ) : ℝ) * (2 * π) := by
      rw [b0]; norm_num at hp hp' k3 k2 l2 l1 ⊢; linarith
    have c1 := lt_of_mul_lt_mul_right b1 (by positivity)
    have c2 := lt_of_mul_lt_mul_right b2 (by positivity)
    have d1 : q + i < 1 := by exact_mod_cast c1
    have d2 : -1 < q + i := by exact_mod_cast c2
    omega
  rw [qi] at hq
  push_cast at hq
  norm_num at hq k2 k3 l1 l2 ⊢
  linarith

/-- Within 34 days the Moon comes to a longitude between 0.06 and 0.33. -/
theorem moon_window {a : ℝ} (h : |centuries a| ≤ 19.9) : ∃ j ≤ 34, ∃ i : ℤ,
    0.06 ≤ moonLambda (a + (j : ℕ)) - i * (2 * π) ∧ moonLambda (a + (j : ℕ)) - i * (2 * π) ≤ 0.33 := by
  have hp := Real.pi_gt_d4
  have hp' := Real.pi_lt_d4
  have era : ∀ j : ℕ, j ≤ 34 → |centuries (a + j)| ≤ 20 := by
    intro j hj
    have j' : (j : ℝ) ≤ 34 := by exact_mod_cast hj
    have j0 : (0 : ℝ) ≤ j := Nat.cast_nonneg j
    unfold centuries at h ⊢
    rw [abs_le] at h ⊢
    norm_num at h ⊢
    constructor <;> linarith
  set i : ℤ := ⌈(moonLambda a - 0.06) / (2 * π)⌉ with hi
  have i1 := Int.le_ceil ((moonLambda a - 0.06) / (2 * π))
  have i2 := Int.ceil_lt_add_one ((moonLambda a - 0.06) / (2 * π))
  rw [← hi] at i1 i2
  have pp : (0 : ℝ) < 2 * π := by positivity
  rw [div_le_iff₀ pp] at i1
  rw [← sub_lt_iff_lt_add, lt_div_iff₀ pp] at i2
  have st := fun (x y : ℕ) (hx : x ≤ 34) (hy : y ≤ 34) (hxy : (x : ℝ) ≤ y) =>
    moon_advance (era x hx) (era y hy) (by linarith)
  have s34 := (st 0 34 (by omega) (by omega) (by norm_num)).1
  obtain ⟨j, j1, j2, j3⟩ := crossing (f := fun j : ℕ => moonLambda (a + j)) (c := 0.06 + i * (2 * π)) (s := 0.27) (N := 34)
    (by simp only [Nat.cast_zero, add_zero]; linarith) (by norm_num) (by
      unfold deg at s34
      push_cast at s34 ⊢
      rw [add_zero] at s34
      norm_num at s34 hp hp' ⊢
      nlinarith) (fun k hk => by
      have := (st k (k + 1) (by omega) (by omega) (by push_cast; linarith)).2
      unfold deg at this
      push_cast at this ⊢
      rw [show a + ((k : ℝ) + 1) - (a + k) = 1 by ring] at this
      norm_num at this hp' ⊢
      linarith)
  exact ⟨j, j1, i, by linarith, by norm_num at j3 ⊢; linarith⟩

theorem arcsin_le_linear {x : ℝ} (h0 : 0 ≤ x) (h1 : x ≤ 1) : 0 ≤ arcsin x ∧ arcsin x ≤ π / 2 * x := by
  have hp := pi_pos
  refine ⟨arcsin_nonneg.mpr h0, ?_⟩
  have m : π / 2 * x ≤ π / 2 := by nlinarith
  rw [arcsin_le_iff_le_sin ⟨by linarith, h1⟩ ⟨by nlinarith, m⟩]
  have := Real.mul_le_sin (x := π / 2 * x) (by positivity) m
  refine le_trans (le_of_eq ?_) this
  field_simp

theorem quarter_angle {r c X Y : ℝ} (h0 : 0 ≤ r) (h1 : r < 2 * π) (hc : 0 ≤ c) (hX : c * cos r = X) (hY : c * sin r = Y)
    (y0 : 0 < Y) (yx : Y < X) : r < π / 4 ∧ X ≤ c := by
  have hp := pi_pos
  have c0 : 0 < c := by
    rcases hc.lt_or_eq with h | h
    · exact h
    · rw [← h, zero_mul] at hY; linarith
  have s0 : 0 < sin r := by
    by_contra hs
    have := mul_nonneg hc (neg_nonneg.mpr (not_lt.mp hs))
    linarith
  have sc : sin r < cos r := by
    by_contra hs
    have := mul_le_mul_of_nonneg_left (not_lt.mp hs) hc
    linarith
  have rp : r < π := by
    by_contra hr
    push Not at hr
    have := sin_nonneg_of_nonneg_of_le_pi (show 0 ≤ r - π by linarith) (by linarith)
    rw [sin_sub_pi] at this
    linarith
  constructor
  · by_contra hr
    push Not at hr
    have := sin_nonneg_of_nonneg_of_le_pi (show 0 ≤ r - π / 4 by linarith) (by linarith)
    rw [sin_sub, cos_pi_div_four, sin_pi_div_four] at this
    have s2 : 0 < √2 / 2 := by positivity
    nlinarith
  · rw [← hX]
    nlinarith [cos_le_one r]

/-- The altitude of rising and setting of the Moon is small. -/
theorem moon_altitude_small {jd : ℝ} (psi eps : ℝ) (h : |centuries jd| ≤ 20) : |(moonPlace jd psi eps).2.2| ≤ 0.0111 := by
  obtain ⟨e, r0, r1⟩ := moon_place_altitude jd psi eps h
  rw [e]
  have hp := Real.pi_lt_d4
  have R : 0 < lunarRadius jd := by linarith
  have x1 : 6378.1363 / lunarRadius jd ≤ 0.01823 := by rw [div_le_iff₀ R]; norm_num; linarith
  have x0 : 0 ≤ 6378.1363 / lunarRadius jd := by positivity
  obtain ⟨a0, a1⟩ := arcsin_le_linear x0 (by linarith)
  generalize 6378.1363 / lunarRadius jd = x at *
  generalize arcsin x = y at *
  have a2 : y ≤ 0.0287 := by
    refine a1.trans ((mul_le_mul (show π / 2 ≤ 1.5708 by norm_num at hp ⊢; linarith) x1 x0 (by norm_num)).trans ?_)
    norm_num
  rw [abs_le]
  norm_num at a2 ⊢
  constructor <;> linarith

/-- The right ascension of the Moon at a longitude a little above zero. -/
theorem moon_quarter {jd : ℝ} (h : |centuries jd| ≤ 20) {i : ℤ} (l0 : 0.06 ≤ moonLambda jd - i * (2 * π))
    (l1 : moonLambda jd - i * (2 * π) ≤ 0.33) :
    ∃ ra dec, place jd "Moon" = .ok (ra, dec, (moonPlace jd (nutationPair jd).1 (nutationPair jd).2).2.2) ∧ ra < π / 4 ∧
      0.9 ≤ cos dec := by
  obtain ⟨ra, dec, a, e, r0, r1, d0, d1, hd⟩ := place_moon_range jd h
  have ea : a = (moonPlace jd (nutationPair jd).1 (nutationPair jd).2).2.2 := by
    have e' := e
    unfold place at e'
    simp only [if_true] at e'
    cases e'
    rfl
  refine ⟨ra, dec, by rw [← ea]; exact e, ?_⟩
  have hm : |millennia jd| ≤ 5.9 := by
    unfold centuries at h; unfold millennia
    rw [abs_le] at h ⊢
    norm_num at h ⊢
    constructor <;> linarith
  obtain ⟨o0, o1⟩ := obliquity_between hm
  rw [add_zero] at o0 o1
  have nu := (nutation_small jd (h.trans (by norm_num))).1
  have hp := Real.pi_lt_d2
  have nu' : |nutationInLongitude jd| ≤ 0.0001 := by
    refine nu.le.trans ?_
    unfold arcsec; norm_num at hp ⊢; linarith
  have be : |lunarLatitude jd| ≤ 0.1065 := by
    refine (lunar_bounds jd h).2.2.le.trans ?_
    have hp4 := Real.pi_lt_d4
    unfold deg; norm_num at hp4 ⊢; linarith
  rw [show direction (moonLambda jd + nutationInLongitude jd) (lunarLatitude jd) =
    direction (moonLambda jd - i * (2 * π) + nutationInLongitude jd) (lunarLatitude jd) from
    direction_congr ⟨i, by ring⟩ (congr_refl _)] at hd
  rw [abs_le] at nu'
  generalize hL : moonLambda jd - i * (2 * π) + nutationInLongitude jd = L at hd
  have L0 : 0.0599 ≤ L := by rw [← hL]; norm_num at l0 nu' ⊢; linarith
  have L1 : L ≤ 0.3301 := by rw [← hL]; norm_num at l1 nu' ⊢; linarith
  clear hL nu nu' l0 l1 hm h e ea
  generalize trueObliquity jd = ε at *
  generalize lunarLatitude jd = β at *
  unfold direction turnX at hd
  simp only [V3.mk.injEq] at hd
  obtain ⟨hX, hY, -⟩ := hd
  have b1 := one_sub_sq_div_two_le_cos (x := β)
  have b2 : |sin β| ≤ 0.1065 := abs_sin_le_abs.trans be
  have b3 : β ^ 2 ≤ 0.1065 ^ 2 := sq_le_sq' (by linarith [(abs_le.mp be).1]) (abs_le.mp be).2
  have e1 := one_sub_sq_div_two_le_cos (x := ε)
  have e2 : sin ε ≤ ε := sin_le (by linarith)
  have e3 : 0 ≤ sin ε := sin_nonneg_of_nonneg_of_le_pi (by linarith) (by linarith [pi_gt_three])
  have L2 := one_sub_sq_div_two_le_cos (x := L)
  have L3 : sin L ≤ L := sin_le (by linarith)
  have L4 : L - L ^ 3 / 6 < sin L := sin_gt_sub_cube (by linarith)
  have cb : 0.9943 ≤ cos β := by norm_num at b3 ⊢; linarith
  have ce : 0.9096 ≤ cos ε := by
    have : ε ^ 2 ≤ 0.4252 ^ 2 := pow_le_pow_left₀ (by linarith) o1 2
    norm_num at this ⊢; linarith
  have cL : 0.9455 ≤ cos L := by
    have : L ^ 2 ≤ 0.3301 ^ 2 := pow_le_pow_left₀ (by linarith) L1 2
    norm_num at this ⊢; linarith
  have sL : 0.0588 ≤ sin L := by
    have : L ^ 2 ≤ 0.3301 ^ 2 := pow_le_pow_left₀ (by linarith) L1 2
    have : L - L ^ 3 / 6 = L * (1 - L ^ 2 / 6) := by ring
    have : (0.0599 : ℝ) * (1 - 0.3301 ^ 2 / 6) ≤ L * (1 - L ^ 2 / 6) :=
      mul_le_mul L0 (by linarith) (by norm_num) (by linarith)
    norm_num at this ⊢; linarith
  have sse : |sin β * sin ε| ≤ 0.1065 * 0.4252 := by
    rw [abs_mul, abs_of_nonneg e3]
    exact mul_le_mul b2 (e2.trans o1) e3 (by norm_num)
  obtain ⟨sse0, sse1⟩ := abs_le.mp sse
  have cb1 := cos_le_one β
  have ce1 := cos_le_one ε
  have u1 : (0.9943 : ℝ) * 0.0588 * 0.9096 ≤ cos β * sin L * cos ε :=
    mul_le_mul (mul_le_mul cb sL (by norm_num) (by linarith)) ce (by norm_num) (mul_nonneg (by linarith) (by linarith))
  have u2 : cos β * sin L * cos ε ≤ 1 * 0.3301 * 1 :=
    mul_le_mul (mul_le_mul cb1 (L3.trans L1) (by linarith) (by norm_num)) ce1 (by linarith) (by norm_num)
  have u3 : (0.9943 : ℝ) * 0.9455 ≤ cos β * cos L := mul_le_mul cb cL (by norm_num) (by linarith)
  obtain ⟨q1, q2⟩ := quarter_angle r0 r1 (cos_nonneg_of_mem_Icc ⟨by linarith, d1⟩) hX hY
    (by norm_num at u1 sse1 ⊢; linarith) (by norm_num at u2 u3 sse0 ⊢; linarith)
  exact ⟨q1, by norm_num at u3 ⊢; linarith⟩

/-- On such a day `rise` raises for the Moon. -/
theorem moon_rise_refused {a : ℚ} (h : |centuries (a : ℝ)| ≤ 20) (hs : 5.53 ≤ siderealTimeGreenwich (a : ℝ)) {i : ℤ}
    (l0 : 0.06 ≤ moonLambda a - i * (2 * π)) (l1 : moonLambda a - i * (2 * π) ≤ 0.33) (delta phi : ℝ) :
    rise a (entry a "Moon").ra (entry a "Moon").dec (entry a "Moon").h0.2.1 delta 0 0 phi =
      .error (.Error "riseset" "m is out of range") := by
  obtain ⟨ra, dec, e, hr, hd⟩ := moon_quarter h l0 l1
  have small := moon_altitude_small (nutationPair (a : ℝ)).1 (nutationPair (a : ℝ)).2 h
  have e1 : (entry a "Moon").ra.2.1 = ra := by unfold entry; simp only; rw [placeVal_of e]
  have e2 : (entry a "Moon").dec.2.1 = dec := by unfold entry; simp only; rw [placeVal_of e]
  have e3 : (entry a "Moon").h0.2.1 = (moonPlace a (nutationPair (a : ℝ)).1 (nutationPair (a : ℝ)).2).2.2 := by
    unfold entry; simp only; rw [placeVal_of e]
  rw [← e3] at small
  unfold rise riseset
  simp only [e1, e2]
  generalize (entry a "Moon").h0.2.1 = h0 at *
  have sh : |sin h0| ≤ 0.0111 := abs_sin_le_abs.trans small
  obtain ⟨sh0, sh1⟩ := abs_le.mp sh
  have cd : 0 < cos dec := by linarith
  have q1 : sin h0 / cos dec ≤ 0.0124 := by rw [div_le_iff₀ cd]; norm_num at sh1 hd ⊢; nlinarith
  have q0 : -0.0124 ≤ sin h0 / cos dec := by rw [le_div_iff₀ cd]; norm_num at sh0 hd ⊢; nlinarith
  rw [cos_zero, sin_zero, one_mul, zero_mul, sub_zero, if_neg cd.ne', if_neg (by linarith), if_neg (by linarith)]
  have hp := Real.pi_lt_d4
  have hp0 := Real.pi_gt_d4
  have w : π / 2 - 0.0196 ≤ arccos (sin h0 / cos dec) := by
    unfold arccos
    have : arcsin (sin h0 / cos dec) ≤ arcsin 0.0124 := monotone_arcsin q1
    have := (arcsin_le_linear (x := 0.0124) (by norm_num) (by norm_num)).2
    norm_num at this hp ⊢
    linarith
  have m : rsReduce (rsEstimate .rise ((ra + 0 - siderealTimeGreenwich a) / pi2) (arccos (sin h0 / cos dec))) =
      .error (.Error "riseset" "m is out of range") := by
    generalize arccos (sin h0 / cos dec) = H at *
    generalize siderealTimeGreenwich (a : ℝ) = S at *
    unfold rsEstimate
    have lt : (ra + 0 - S) / pi2 - H / pi2 < -1 := by
      rw [← sub_div]
      unfold pi2
      rw [div_lt_iff₀ (by positivity)]
      norm_num at hp hp0 hs w ⊢
      linarith
    rcases rsReduce_cases ((ra + 0 - S) / pi2 - H / pi2) with ⟨e, -⟩ | ⟨-, h, -⟩
    · exact e
    · linarith
  rw [m]
  rfl

end

end Verif

import Verif.Lemmas.FloatGeo
import Verif.Lemmas.FloatEquinox

/-!
# The loop of `geocentric_planet` in binary64
-/

namespace Verif
open Real

/-- Two angles, each at most `pi` in size, that agree to `e` up to whole turns. -/
theorem diffAngleF_small {fl : ℚ → ℚ} (hf : FloatLike fl) {a b : ℚ} (ha : |a| ≤ piF) (hb : |b| ≤ piF) {e : ℝ}
    (he : e ≤ 1) (h : ∃ k : ℤ, |(b : ℝ) - a - k * (2 * π)| ≤ e) : |(diffAngleF fl a b : ℝ)| ≤ e + 5e-14 := by
  obtain ⟨k, hk⟩ := h
  have e0 : 0 ≤ e := (abs_nonneg _).trans hk
  have ha' : |(a : ℝ)| ≤ piF := by exact_mod_cast ha
  have hb' : |(b : ℝ)| ≤ piF := by exact_mod_cast hb
  have p2 := pi2F_near
  have p1 := piF_near
  have p3 := Real.pi_gt_d2
  have p4 := Real.pi_lt_d2
  unfold Near at p1 p2
  obtain ⟨p1a, p1b⟩ := abs_le.mp p1
  obtain ⟨p2a, p2b⟩ := abs_le.mp p2
  obtain ⟨a1, a2⟩ := abs_le.mp ha'
  obtain ⟨b1, b2⟩ := abs_le.mp hb'
  obtain ⟨k1, k2⟩ := abs_le.mp hk
  norm_num at p1a p1b p2a p2b p3 p4
  have kk : k = -1 ∨ k = 0 ∨ k = 1 := by
    have h1 : (-2 : ℝ) < k := by
      by_contra hn
      push Not at hn
      nlinarith
    have h2 : (k : ℝ) < 2 := by
      by_contra hn
      push Not at hn
      nlinarith
    have h1 : (-2 : ℤ) < k := by exact_mod_cast h1
    have h2 : k < 2 := by exact_mod_cast h2
    omega
  -- the intermediate result
  have sub2 : ∀ r : ℚ, |(r : ℝ)| ≤ 8 → |(fl (r - pi2F) : ℝ) - (r - 2 * π)| ≤ 1e-14 := by
    intro r hr
    have n1 : Near (r - pi2F) ((r : ℝ) - 2 * π) 2.5e-16 := by
      unfold Near; push_cast
      rw [show (r : ℝ) - pi2F - (r - 2 * π) = -(pi2F - 2 * π) by ring, abs_neg]; exact p2
    exact n1.rnd hf (M := 16) ((abs_sub _ _).trans (by
      rw [abs_of_pos (by linarith : 0 < 2 * π)]; linarith)) (by rw [uuR, wwR]; norm_num)
  have fin : ∀ r : ℚ, (|(r : ℝ)| ≤ e + 2e-14 ∨ |(r : ℝ) - 2 * π| ≤ e + 2e-14) →
      |((if r > piF then fl (r - pi2F) else r : ℚ) : ℝ)| ≤ e + 5e-14 := by
    intro r hr
    split_ifs with h
    · have h' : (piF : ℝ) < r := by exact_mod_cast h
      rcases hr with hr | hr
      · obtain ⟨r1, r2⟩ := abs_le.mp hr
        norm_num at r2; linarith
      · obtain ⟨r1, r2⟩ := abs_le.mp hr
        norm_num at r1 r2
        have := sub2 r (by rw [abs_le]; constructor <;> linarith)
        have t := abs_add_le ((fl (r - pi2F) : ℝ) - (r - 2 * π)) (r - 2 * π)
        rw [sub_add_cancel] at t
        norm_num at hr this t ⊢; linarith
    · have h' : (r : ℝ) ≤ piF := by exact_mod_cast not_lt.mp h
      rcases hr with hr | hr
      · norm_num at hr ⊢; linarith
      · obtain ⟨r1, r2⟩ := abs_le.mp hr
        norm_num at r1; linarith
  unfold diffAngleF
  simp only
  apply fin
  split_ifs with h
  · have h' : (b : ℝ) < a := by exact_mod_cast h
    have n1 : Near (b + pi2F) ((b : ℝ) + 2 * π) 2.5e-16 := by
      unfold Near; push_cast
      rw [show (b : ℝ) + pi2F - (b + 2 * π) = pi2F - 2 * π by ring]; exact p2
    have n2 := (n1.fl hf (M := 12) (by rw [abs_le]; constructor <;> linarith)).sub (near_self a)
    have n3 := n2.rnd hf (M := 16) (by rw [abs_le]; constructor <;> linarith) (e' := 1e-14) (by rw [uuR, wwR]; norm_num)
    unfold Near at n3
    generalize (fl (fl (b + pi2F) - a) : ℝ) = r at *
    obtain ⟨n4, n5⟩ := abs_le.mp n3
    norm_num at n4 n5
    rcases kk with rfl | rfl | rfl
    · left; push_cast at k1 k2; rw [abs_le]; norm_num; constructor <;> linarith
    · right; push_cast at k1 k2; rw [abs_le]; norm_num; constructor <;> linarith
    · push_cast at k1 k2; linarith
  · have h' : (a : ℝ) ≤ b := by exact_mod_cast not_lt.mp h
    have n1 : Near (b - a) ((b : ℝ) - a) 0 := by simp [Near]
    have n3 := n1.rnd hf (M := 8) (by rw [abs_le]; constructor <;> linarith) (e' := 1e-14) (by rw [uuR, wwR]; norm_num)
    unfold Near at n3
    generalize (fl (b - a) : ℝ) = r at *
    obtain ⟨n4, n5⟩ := abs_le.mp n3
    norm_num at n4 n5
    rcases kk with rfl | rfl | rfl
    · push_cast at k1 k2; linarith
    · left; push_cast at k1 k2; rw [abs_le]; norm_num; constructor <;> linarith
    · right; push_cast at k1 k2; rw [abs_le]; norm_num; constructor <;> linarith

/-- The start value -100 is far from every longitude. -/
theorem first_passF {fl : ℚ → ℚ} (hf : FloatLike fl) {a : ℚ} (ha : |a| ≤ piF) : (90 : ℝ) ≤ |(diffAngleF fl a (-100) : ℝ)| := by
  have ha' : |(a : ℝ)| ≤ piF := by exact_mod_cast ha
  have p : (piF : ℝ) ≤ 3.15 := by unfold piF; norm_num
  have p2 := pi2F_near
  have p3 := Real.pi_gt_d2
  have p4 := Real.pi_lt_d2
  obtain ⟨a1, a2⟩ := abs_le.mp ha'
  norm_num at p p3 p4
  have lt : (-100 : ℚ) < a := by
    have : ((-100 : ℚ) : ℝ) < a := by push_cast; linarith
    exact_mod_cast this
  unfold diffAngleF
  simp only
  rw [if_pos lt]
  have n1 : Near (-100 + pi2F) (-100 + 2 * π) 2.5e-16 := by
    unfold Near; push_cast
    rw [show (-100 : ℝ) + pi2F - (-100 + 2 * π) = pi2F - 2 * π by ring]; exact p2
  have n2 := (n1.fl hf (M := 100) (by rw [abs_le]; constructor <;> linarith)).sub (near_self a)
  have n3 := n2.rnd hf (M := 110) (by rw [abs_le]; constructor <;> linarith) (e' := 1e-12) (by rw [uuR, wwR]; norm_num)
  unfold Near at n3
  obtain ⟨n4, n5⟩ := abs_le.mp n3
  norm_num at n4 n5
  have neg : (fl (fl (-100 + pi2F) - a) : ℝ) < 0 := by linarith
  rw [if_neg, abs_of_neg neg]
  · linarith
  · rw [gt_iff_lt, not_lt]
    have q : ((fl (fl (-100 + pi2F) - a) : ℚ)) < 0 := by exact_mod_cast neg
    have : (0 : ℚ) ≤ piF := by unfold piF; norm_num
    linarith

/-- The test of the loop. -/
theorem delta_bounds {fl : ℚ → ℚ} (hf : FloatLike fl) {delta : ℚ} (h1 : 1e-9 ≤ delta) (h2 : delta ≤ 14) :
    6.283 * (delta : ℝ) ≤ fl (pi2F * delta) ∧ (fl (pi2F * delta) : ℝ) ≤ 88 := by
  have h1' : (1e-9 : ℝ) ≤ delta := by have := (Rat.cast_le (K := ℝ)).mpr h1; push_cast at this; exact this
  have h2' : (delta : ℝ) ≤ 14 := by exact_mod_cast h2
  have e := hf.errR (pi2F * delta)
  rw [uuR, wwR] at e
  push_cast at e
  have l : (6.28318 : ℝ) ≤ pi2F := by unfold pi2F; norm_num
  have u : (pi2F : ℝ) ≤ 6.2832 := pi2F_lt
  rw [abs_of_nonneg (by norm_num at l h1'; positivity : (0 : ℝ) ≤ pi2F * delta)] at e
  obtain ⟨e1, e2⟩ := abs_le.mp e
  have d0 : (0 : ℝ) ≤ delta := le_trans (by norm_num) h1'
  have m1 := mul_le_mul_of_nonneg_right l d0
  have m2 := mul_le_mul_of_nonneg_right u d0
  generalize (pi2F : ℝ) * delta = y at *
  norm_num at *
  constructor <;> linarith

set_option maxHeartbeats 800000 in
/-- One pass. -/
theorem geo_passF {fl : ℚ → ℚ} (hf : FloatLike fl) {lib : GeoLib} (hl : lib.Good fl 64) {p : String}
    (hp : p ∈ knownPlanets) (hE : p ≠ "Earth") {c : Tables} (hc : HasTables p c) {jd : ℚ}
    (h : |millennia jd| ≤ 5.9) {t : ℚ} (wt : Window jd t) :
    ∃ G b t' : ℚ, |G| ≤ piF ∧ NearA G (sep c earthTables t).lon 1.6e-8 ∧ Near b (sep c earthTables t).lat 1.61e-8 ∧
      |(t' : ℝ) - (jd - lightDay * (sep c earthTables t).norm)| ≤ 5.4e-10 ∧ Window jd t' ∧
      ∀ (n : ℕ) (l0 delta : ℚ), geocentricLoopF fl lib jd p delta (n + 1) t l0 =
        if |diffAngleF fl G l0| < fl (pi2F * delta) then .ok (G, b)
        else geocentricLoopF fl lib jd p delta n t' G := by
  have ht := window_era h wt
  obtain ⟨e, q, X, Y, Z, e1, e2, e3, e4⟩ := rectOffsetF_near hf hl.trig.num hp hc t ht
  obtain ⟨s1, s2, s3⟩ := sep_bounds hp hE hc ht
  obtain ⟨-, lat6, -⟩ := lat_bound hp hE hc ht
  have hp4 := Real.pi_lt_d4
  have hp3 := Real.pi_gt_d2
  set v := sep c earthTables t with hv
  -- in the plane
  have pl : V3.norm (V3.sub ⟨X, Y, 0⟩ ⟨v.x, v.y, 0⟩) ≤ 2.43e-9 := by
    refine le_trans ?_ e4
    unfold V3.norm
    refine Real.sqrt_le_sqrt ?_
    simp only [V3.sub]
    linarith [sq_nonneg ((Z : ℝ) - v.z)]
  have pl2 : ((X : ℝ) - v.x) ^ 2 + ((Y : ℝ) - v.y) ^ 2 ≤ 2.43e-9 ^ 2 := by
    have := pow_le_pow_left₀ (norm_nonneg' _) pl 2
    unfold V3.norm at this
    rw [Real.sq_sqrt (by positivity)] at this
    simp only [V3.sub] at this
    linarith
  have sp2 : ((X : ℝ) - v.x) ^ 2 + ((Y : ℝ) - v.y) ^ 2 + ((Z : ℝ) - v.z) ^ 2 ≤ 2.43e-9 ^ 2 := by
    have := pow_le_pow_left₀ (norm_nonneg' _) e4 2
    unfold V3.norm at this
    rw [Real.sq_sqrt (by positivity)] at this
    exact this
  have nd : |√((X : ℝ) ^ 2 + (Y : ℝ) ^ 2) - √(v.x ^ 2 + v.y ^ 2)| ^ 2 ≤ ((X : ℝ) - v.x) ^ 2 + ((Y : ℝ) - v.y) ^ 2 := by
    have := abs_norm_sub ⟨X, Y, 0⟩ ⟨v.x, v.y, 0⟩
    unfold V3.norm at this
    simp only [V3.sub] at this
    norm_num at this
    have k := pow_le_pow_left₀ (abs_nonneg _) this 2
    rwa [Real.sq_sqrt (by positivity)] at k
  have nd' : |√((X : ℝ) ^ 2 + (Y : ℝ) ^ 2) - √(v.x ^ 2 + v.y ^ 2)| ≤ 2.43e-9 :=
    abs_le_of_sq_le_sq' (by rw [← sq_abs]; exact nd.trans pl2) (by norm_num) |> fun k => abs_le.mpr k
  have v24 : 0.24 ≤ √(v.x ^ 2 + v.y ^ 2) := Real.le_sqrt_of_sq_le s1
  have v32 : √(v.x ^ 2 + v.y ^ 2) ≤ 31.5 := by
    refine le_trans ?_ s3
    unfold V3.norm
    exact Real.sqrt_le_sqrt (by linarith [sq_nonneg v.z])
  obtain ⟨nd1, nd2⟩ := abs_le.mp nd'
  have x24 : 0.2399 ≤ √((X : ℝ) ^ 2 + (Y : ℝ) ^ 2) := by norm_num at nd1 v24 ⊢; linarith
  have x32 : √((X : ℝ) ^ 2 + (Y : ℝ) ^ 2) ≤ 31.6 := by norm_num at nd2 v32 ⊢; linarith
  have X24 : (0.2399 : ℝ) ^ 2 ≤ (X : ℝ) ^ 2 + (Y : ℝ) ^ 2 := by
    have := pow_le_pow_left₀ (by norm_num) x24 2
    rwa [Real.sq_sqrt (by positivity)] at this
  have V24 : (0.2399 : ℝ) ^ 2 ≤ v.x ^ 2 + v.y ^ 2 := le_trans (by norm_num) s1
  obtain ⟨sq1, sq2⟩ := squares_near hf X Y Z (le_trans (by norm_num) X24)
  -- longitude
  have A : NearA (lib.atan2F Y X) v.lon 1.6e-8 := by
    refine (atan2F_near hl.trig (by norm_num) X24 V24 (by norm_num) pl2).mono ?_
    norm_num at hp4 ⊢; linarith
  -- latitude
  have R1 := sqrtF_near hl (by positivity) (x32.trans (by norm_num)) sq1
  generalize hS : lib.sqrtF (fl (fl (X * X) + fl (Y * Y))) = S at *
  obtain ⟨R1a, R1b⟩ := abs_le.mp R1
  have Spos : (0.2399 : ℝ) ≤ S := by
    norm_num at R1a nd1 v24 ⊢; linarith
  have B : NearA (lib.atan2F Z S) v.lat 1.61e-8 := by
    have a1 : (0.2399 : ℝ) ^ 2 ≤ (S : ℝ) ^ 2 + (Z : ℝ) ^ 2 := by
      have := pow_le_pow_left₀ (by norm_num) Spos 2
      linarith [sq_nonneg (Z : ℝ)]
    have a2 : (0.2399 : ℝ) ^ 2 ≤ (√(v.x ^ 2 + v.y ^ 2)) ^ 2 + v.z ^ 2 := by
      rw [Real.sq_sqrt (by positivity)]; linarith [sq_nonneg v.z]
    have a3 : ((S : ℝ) - √(v.x ^ 2 + v.y ^ 2)) ^ 2 + ((Z : ℝ) - v.z) ^ 2 ≤ 2.44e-9 ^ 2 := by
      have d1 : ((S : ℝ) - √(v.x ^ 2 + v.y ^ 2)) ^ 2 ≤
          (√((X : ℝ) ^ 2 + (Y : ℝ) ^ 2) - √(v.x ^ 2 + v.y ^ 2)) ^ 2 + 1e-21 := by
        generalize √((X : ℝ) ^ 2 + (Y : ℝ) ^ 2) = m at *
        generalize √(v.x ^ 2 + v.y ^ 2) = n at *
        have : ((S : ℝ) - n) ^ 2 = (m - n) ^ 2 + ((S : ℝ) - m) * (((S : ℝ) - m) + 2 * (m - n)) := by ring
        rw [this]
        have u : |((S : ℝ) - m) * (((S : ℝ) - m) + 2 * (m - n))| ≤ 7e-14 * 5e-9 := by
          rw [abs_mul]
          refine mul_le_mul R1 ?_ (abs_nonneg _) (by norm_num)
          refine (abs_add_le _ _).trans ?_
          rw [abs_mul, abs_of_pos (by norm_num : (0 : ℝ) < 2)]
          norm_num at R1 nd' ⊢; linarith
        have := (le_abs_self _).trans u
        norm_num at this ⊢; linarith
      rw [sq_abs] at nd
      norm_num at d1 nd sp2 ⊢; linarith
    refine (atan2F_near hl.trig (by norm_num) a1 a2 (by norm_num) a3).mono ?_
    norm_num at hp4 ⊢; linarith
  have B' : Near (lib.atan2F Z S) v.lat 1.61e-8 := by
    obtain ⟨k, hk⟩ := B
    have r : |((lib.atan2F Z S : ℚ) : ℝ)| ≤ 3.1416 := by
      have := (Rat.cast_le (K := ℝ)).mpr (hl.trig.atan2_range Z S)
      push_cast at this
      refine this.trans ?_
      unfold piF; norm_num
    unfold Near at hk ⊢
    have k0 : k = 0 := by
      by_contra hn
      have k1 : (1 : ℝ) ≤ |(k : ℝ)| := by exact_mod_cast Int.one_le_abs hn
      have : |(k : ℝ) * (2 * π)| ≤ 3.75 := by
        rw [show (k : ℝ) * (2 * π) = (lib.atan2F Z S : ℝ) - v.lat - ((lib.atan2F Z S : ℝ) - (v.lat + k * (2 * π))) by ring]
        refine (abs_sub _ _).trans ?_
        have := abs_sub (lib.atan2F Z S : ℝ) v.lat
        norm_num at this r lat6 hk ⊢; linarith
      rw [abs_mul, abs_of_pos (by linarith : 0 < 2 * π)] at this
      norm_num at this hp3; nlinarith
    rw [k0] at hk
    simpa using hk
  -- light-time
  have nv : |V3.norm ⟨X, Y, Z⟩ - v.norm| ≤ 2.43e-9 := (abs_norm_sub _ _).trans e4
  have nX : V3.norm ⟨X, Y, Z⟩ ≤ 31.6 := by
    have := (abs_le.mp nv).2
    norm_num at this s3 ⊢; linarith
  have R2 := sqrtF_near hl (by positivity) (show √((X : ℝ) ^ 2 + (Y : ℝ) ^ 2 + (Z : ℝ) ^ 2) ≤ 32 from
    nX.trans (by norm_num)) sq2
  change |_ - V3.norm ⟨X, Y, Z⟩| ≤ _ at R2
  have vn : 0.24 ≤ v.norm := v24.trans (Real.sqrt_le_sqrt (by linarith [sq_nonneg v.z]))
  generalize hW : lib.sqrtF (fl (fl (fl (X * X) + fl (Y * Y)) + fl (Z * Z))) = W at *
  have W1 : Near W v.norm 2.431e-9 := by
    have := abs_sub_le (W : ℝ) (V3.norm ⟨X, Y, Z⟩) v.norm
    unfold Near; norm_num at R2 nv this ⊢; linarith
  have l0 : Near (fl 0.0057755183) lightDay 1e-18 := by
    have := (near_self 0.0057755183).rnd hf (M := 0.006) (by norm_num [abs_of_pos]) (e' := 1e-18) (by
      rw [uuR, wwR]; norm_num)
    unfold lightDay
    push_cast at this
    exact this
  have l1 : |lightDay| ≤ 0.00578 := by unfold lightDay; norm_num [abs_of_pos]
  have v1 : |v.norm| ≤ 31.5 := by rw [abs_of_nonneg (norm_nonneg' _)]; exact s3
  have lv : |lightDay * v.norm| ≤ 0.183 := by
    rw [abs_mul]; exact (mul_le_mul l1 v1 (abs_nonneg _) (by norm_num)).trans (by norm_num)
  have T1 := (l0.mul W1 l1 v1).rnd hf lv (e' := 1.41e-11) (by rw [uuR, wwR]; norm_num)
  have jb : |(jd : ℝ) - lightDay * v.norm| ≤ 4606521 := by
    refine (abs_sub _ _).trans ?_
    have : |(jd : ℝ)| ≤ 4606520 := by
      have e : (jd : ℝ) = 2451545 + millennia jd * 365250 := by unfold millennia; ring
      obtain ⟨h1, h2⟩ := abs_le.mp h
      norm_num at h1 h2
      rw [e, abs_le]; constructor <;> linarith
    norm_num at lv ⊢; linarith
  have T2 := ((near_self jd).sub T1).rnd hf jb (e' := 5.4e-10) (by rw [uuR, wwR]; norm_num)
  refine ⟨lib.atan2F Y X, lib.atan2F Z S, fl (jd - fl (fl 0.0057755183 * W)),
    hl.trig.atan2_range _ _, A, B', T2, ?_, ?_⟩
  · obtain ⟨T3, T4⟩ := abs_le.mp T2
    have : 0.0013 ≤ lightDay * v.norm := by
      unfold lightDay; norm_num at vn ⊢; linarith
    have k := (abs_le.mp lv).2
    clear_value v
    norm_num at this k T3 T4
    constructor
    · norm_num; linarith
    · linarith
  · intro n l0 delta
    rw [geocentricLoopF, e1, e2]
    simp only [bind, Except.bind, e3, hS, hW]

/-- Bound of the difference of two successive times. -/
noncomputable def shrinkT (D : ℝ) : ℝ := 0.00056 * D + 1.08e-9

/-- Once there is a previous longitude, the loop ends. -/
theorem geo_loopF {fl : ℚ → ℚ} (hf : FloatLike fl) {lib : GeoLib} (hl : lib.Good fl 64) {p : String}
    (hp : p ∈ knownPlanets) (hE : p ≠ "Earth") {c : Tables} (hc : HasTables p c) {jd : ℚ}
    (h : |millennia jd| ≤ 5.9) {x : ℝ} (wx : Window jd x) (ex : Emitted c earthTables jd x) {delta : ℚ}
    (hd1 : 1e-9 ≤ delta) (hd2 : delta ≤ 14) {E : ℝ} (hEb : 5.41e-10 ≤ E) :
    ∀ (n : ℕ) (D : ℝ) (t s G0 : ℚ), Window jd t → Window jd s → |G0| ≤ piF →
      NearA G0 (sep c earthTables s).lon 1.6e-8 → |(t : ℝ) - (jd - lightDay * (sep c earthTables s).norm)| ≤ 5.4e-10 →
      |(t : ℝ) - x| ≤ E → |(t : ℝ) - s| ≤ D → D ≤ 1 → 0.6336 * (shrinkT^[n] D) + 3.21e-8 < 6.283 * delta →
      ∃ t' G b : ℚ, Window jd t' ∧ |(t' : ℝ) - x| ≤ E ∧ |G| ≤ piF ∧ NearA G (sep c earthTables t').lon 1.6e-8 ∧
        Near b (sep c earthTables t').lat 1.61e-8 ∧
        ∀ m, geocentricLoopF fl lib jd p delta (n + 1 + m) t G0 = .ok (G, b) := by
  have hp0 := Real.pi_pos
  have hp4 := Real.pi_lt_d4
  obtain ⟨db, -⟩ := delta_bounds hf hd1 hd2
  intro n
  induction n with
  | zero =>
    intro D t s G0 wt ws hG0 nG0 _ htx hts hD1 hstop
    obtain ⟨G, b, t', g1, g2, g3, -, -, g6⟩ := geo_passF hf hl hp hE hc h wt
    refine ⟨t, G, b, wt, htx, g1, g2, g3, fun m => ?_⟩
    rw [show 0 + 1 + m = m + 1 by omega, g6, if_pos]
    have ln := lon_near hp hE hc h wt ws
    obtain ⟨k1, n1⟩ := g2
    obtain ⟨k2, n2⟩ := nG0
    obtain ⟨j, hj⟩ := diff_angle_congr (sep c earthTables t).lon (sep c earthTables s).lon
    have ln' : |diffAngle (sep c earthTables t).lon (sep c earthTables s).lon| ≤ 0.6336 * D := by
      refine ln.trans ?_
      have a0 := abs_nonneg ((t : ℝ) - s)
      have : π / 2 * (0.0968 * |(t : ℝ) - s| / 0.24) ≤ 1.5708 * (0.0968 * |(t : ℝ) - s| / 0.24) := by
        refine mul_le_mul_of_nonneg_right ?_ (by positivity)
        norm_num at hp4 ⊢; linarith
      refine this.trans ?_
      norm_num; linarith
    rw [Function.iterate_zero, id] at hstop
    have sm := diffAngleF_small hf g1 hG0 (e := 0.6336 * D + 3.2e-8) (by norm_num; linarith) ⟨k2 - k1 - j, by
      have e : (G0 : ℝ) - G - ((k2 - k1 - j : ℤ) : ℝ) * (2 * π) =
          diffAngle (sep c earthTables t).lon (sep c earthTables s).lon +
          (G0 - ((sep c earthTables s).lon + k2 * (2 * π))) - (G - ((sep c earthTables t).lon + k1 * (2 * π))) := by
        rw [hj]; push_cast; ring
      rw [e]
      refine (abs_sub _ _).trans ?_
      have := abs_add_le (diffAngle (sep c earthTables t).lon (sep c earthTables s).lon)
        (G0 - ((sep c earthTables s).lon + k2 * (2 * π)))
      unfold Near at n1 n2
      norm_num at n1 n2 ln' this ⊢; linarith⟩
    have : |(diffAngleF fl G G0 : ℝ)| < fl (pi2F * delta) := by
      refine lt_of_lt_of_le (lt_of_le_of_lt sm ?_) db
      norm_num at hstop ⊢; linarith
    exact_mod_cast this
  | succ n ih =>
    intro D t s G0 wt ws hG0 nG0 hst htx hts hD1 hstop
    obtain ⟨G, b, t', g1, g2, g3, g4, g5, g6⟩ := geo_passF hf hl hp hE hc h wt
    by_cases hs : |diffAngleF fl G G0| < fl (pi2F * delta)
    · refine ⟨t, G, b, wt, htx, g1, g2, g3, fun m => ?_⟩
      rw [show n + 1 + 1 + m = (n + 1 + m) + 1 by omega, g6, if_pos hs]
    · have D0 : 0 ≤ D := (abs_nonneg _).trans hts
      have c1 := step_contract hp hc h wt ws
      have c2 := step_contract hp hc h wt wx
      rw [← show x = jd - lightDay * (sep c earthTables x).norm from ex] at c2
      have i1 : |(t' : ℝ) - x| ≤ E := by
        have := abs_sub_le (t' : ℝ) (jd - lightDay * (sep c earthTables t).norm) x
        norm_num at g4 c2 htx hEb this ⊢; linarith
      have i2 : |(t' : ℝ) - t| ≤ shrinkT D := by
        have a := abs_sub_le (t' : ℝ) (jd - lightDay * (sep c earthTables t).norm) t
        have b := abs_sub_le (jd - lightDay * (sep c earthTables t).norm) (jd - lightDay * (sep c earthTables s).norm) t
        rw [abs_sub_comm (_ - _ * (sep c earthTables s).norm) (t : ℝ)] at b
        unfold shrinkT
        norm_num at g4 c1 hts hst a b ⊢; linarith
      have i3 : shrinkT D ≤ 1 := by unfold shrinkT; norm_num; linarith
      obtain ⟨t'', G', b', j1, j2, j3, j4, j5, j6⟩ := ih (shrinkT D) t' t G g5 wt g1 g2 g4 i1 i2 i3 (by
        rw [← Function.iterate_succ_apply]; exact hstop)
      refine ⟨t'', G', b', j1, j2, j3, j4, j5, fun m => ?_⟩
      rw [show n + 1 + 1 + m = (n + 1 + m) + 1 by omega, g6, if_neg hs, j6]

/-- The whole loop: with `n + 2` passes or more. -/
theorem geo_convergesF {fl : ℚ → ℚ} (hf : FloatLike fl) {lib : GeoLib} (hl : lib.Good fl 64) {p : String}
    (hp : p ∈ knownPlanets) (hE : p ≠ "Earth") {c : Tables} (hc : HasTables p c) {jd : ℚ}
    (h : |millennia jd| ≤ 5.9) {x : ℝ} (wx : Window jd x) (ex : Emitted c earthTables jd x) {delta : ℚ}
    (hd1 : 1e-9 ≤ delta) (hd2 : delta ≤ 14) (n : ℕ) (hstop : 0.6336 * (shrinkT^[n] 0.1821) + 3.21e-8 < 6.283 * delta) :
    ∃ t' G b : ℚ, Window jd t' ∧ |(t' : ℝ) - x| ≤ 0.00056 * |jd - x| + 5.5e-10 ∧ |G| ≤ piF ∧
        NearA G (sep c earthTables t').lon 1.6e-8 ∧ Near b (sep c earthTables t').lat 1.61e-8 ∧
        ∀ m, geocentricLoopF fl lib jd p delta (n + 2 + m) jd (-100) = .ok (G, b) := by
  have wj : Window jd jd := ⟨by norm_num, le_rfl⟩
  have b := (sep_bounds hp hE hc (window_era h wj)).2.2
  have n0 := norm_nonneg' (sep c earthTables jd)
  obtain ⟨G, b0, t', g1, g2, g3, g4, g5, g6⟩ := geo_passF hf hl hp hE hc h wj
  have c2 := step_contract hp hc h wj wx
  rw [← show x = jd - lightDay * (sep c earthTables x).norm from ex] at c2
  have nx := abs_nonneg ((jd : ℝ) - x)
  obtain ⟨t'', G', b', j1, j2, j3, j4, j5, j6⟩ := geo_loopF hf hl hp hE hc h wx ex hd1 hd2
    (E := 0.00056 * |jd - x| + 5.5e-10) (by norm_num; linarith) n 0.1821 t' jd G g5 wj g1 g2 g4 (by
      have := abs_sub_le (t' : ℝ) (jd - lightDay * (sep c earthTables jd).norm) x
      norm_num at g4 c2 this ⊢; linarith) (by
      have := abs_sub_le (t' : ℝ) (jd - lightDay * (sep c earthTables jd).norm) jd
      have q : |jd - lightDay * (sep c earthTables jd).norm - jd| ≤ 0.182 := by
        rw [show ∀ a b : ℝ, a - b - a = -b by intros; ring, abs_neg]
        unfold lightDay
        rw [abs_of_nonneg (by positivity)]
        norm_num at b ⊢; linarith
      norm_num at g4 q this ⊢; linarith) (by norm_num) hstop
  refine ⟨t'', G', b', j1, j2, j3, j4, j5, fun m => ?_⟩
  rw [show n + 2 + m = (n + 1 + m) + 1 by omega, g6, if_neg, j6]
  rw [not_lt]
  have f := first_passF hf g1
  have d := (delta_bounds hf hd1 hd2).2
  have : (fl (pi2F * delta) : ℝ) ≤ |(diffAngleF fl G (-100) : ℝ)| := by linarith
  exact_mod_cast this

/-! ### The correction to the FK5 -/

/-- Size of the correction in binary64. -/
theorem fk5F_small {fl : ℚ → ℚ} (hf : FloatLike fl) {lib : TrigLib} {N : ℕ} (hl : lib.Good fl N) (jd G b : ℚ)
    (hG : |G| ≤ piF) (hb : |(b : ℝ)| ≤ 0.61) (ht : |tan (b : ℝ)| ≤ 0.601) :
    ∃ d : ℝ, |d| ≤ 6.03e-7 ∧ NearA (vsopToFk5F fl lib.toNumLib jd G b).1 (G + d) 1e-14 ∧
      (0 ≤ (vsopToFk5F fl lib.toNumLib jd G b).1 ∧ (vsopToFk5F fl lib.toNumLib jd G b).1 ≤ pi2F) ∧
      |((vsopToFk5F fl lib.toNumLib jd G b).2 : ℝ) - b| ≤ 2.7e-7 := by
  have hp4 := Real.pi_lt_d4
  have hG' : |(G : ℝ)| ≤ 3.15 := by
    have := (Rat.cast_le (K := ℝ)).mpr hG
    push_cast at this
    refine this.trans ?_
    unfold piF; norm_num
  unfold vsopToFk5F
  simp only
  generalize horner fl _ [G, fk0F fl, fk1F fl] = L1
  have f2 := arcsecF_near hf (s := -0.09033) (by norm_num)
  have f3 := arcsecF_near hf (s := 0.03916) (by norm_num)
  push_cast at f2 f3
  change Near (fk2F fl) fk2 _ at f2
  change Near (fk3F fl) fk3 _ at f3
  have g2 : |fk2| ≤ 4.3795e-7 := by
    rw [fk2_eq, abs_arcsec]; unfold arcsec
    rw [abs_neg, abs_of_pos (by norm_num : (0 : ℝ) < 0.09033)]
    norm_num at hp4 ⊢; linarith
  have g3 : |fk3| ≤ 1.8986e-7 := by
    rw [fk3_eq, abs_arcsec]; unfold arcsec
    rw [abs_of_pos (by norm_num : (0 : ℝ) < 0.03916)]
    norm_num at hp4 ⊢; linarith
  have c := hl.num.cos L1
  have s := hl.num.sin L1
  have u1 := (abs_cos_add_sin (L1 : ℝ)).trans sqrt_two_bound
  have u2 := (abs_cos_sub_sin (L1 : ℝ)).trans sqrt_two_bound
  have cs := (Near.add c s).rnd hf u1 (e' := 1e-14) (by rw [uuR, wwR]; norm_num)
  have cd := (Near.sub c s).rnd hf u2 (e' := 1e-14) (by rw [uuR, wwR]; norm_num)
  have v1 : |fk3 * (cos (L1 : ℝ) + sin (L1 : ℝ))| ≤ 2.6851e-7 := by
    rw [abs_mul]; exact (mul_le_mul g3 u1 (abs_nonneg _) (by norm_num)).trans (by norm_num)
  have v2 : |fk3 * (cos (L1 : ℝ) - sin (L1 : ℝ))| ≤ 2.6851e-7 := by
    rw [abs_mul]; exact (mul_le_mul g3 u2 (abs_nonneg _) (by norm_num)).trans (by norm_num)
  have w1 := (f3.mul cs g3 u1).rnd hf v1 (e' := 1e-20) (by
    rw [abs_of_pos (by norm_num : (0 : ℝ) < 0.03916)]
    rw [uuR, wwR]; norm_num)
  have w2 := (f3.mul cd g3 u2).rnd hf v2 (e' := 1e-20) (by
    rw [abs_of_pos (by norm_num : (0 : ℝ) < 0.03916)]
    rw [uuR, wwR]; norm_num)
  have tn : Near (lib.tanF b) (tan (b : ℝ)) 1e-14 := by
    refine (hl.tanG b).trans ?_
    norm_num at ht ⊢; linarith
  have x1 : |fk3 * (cos (L1 : ℝ) + sin (L1 : ℝ)) * tan (b : ℝ)| ≤ 1.6138e-7 := by
    rw [abs_mul]; exact (mul_le_mul v1 ht (abs_nonneg _) (by norm_num)).trans (by norm_num)
  have x2 := (w1.mul tn v1 ht).rnd hf x1 (e' := 1e-20) (by rw [uuR, wwR]; norm_num)
  have y1 : |fk2 + fk3 * (cos (L1 : ℝ) + sin (L1 : ℝ)) * tan (b : ℝ)| ≤ 6e-7 :=
    (abs_add_le _ _).trans (by norm_num at g2 x1 ⊢; linarith)
  have y2 := (f2.add x2).rnd hf y1 (e' := 1e-18) (by
    rw [abs_of_neg (by norm_num : (-0.09033 : ℝ) < 0)]
    rw [uuR, wwR]; norm_num)
  have dl := y2.abs y1
  have db := w2.abs v2
  generalize fl (fk2F fl + fl (fl (fk3F fl * fl (lib.cosF L1 + lib.sinF L1)) * lib.tanF b)) = dL at *
  generalize fl (fk3F fl * fl (lib.cosF L1 - lib.sinF L1)) = dB at *
  refine ⟨dL, dl.trans (by norm_num), ?_, modpi2F_range hf _, ?_⟩
  · have n0 : NearA G (G : ℝ) 0 := ⟨0, by simp [Near]⟩
    obtain ⟨z1, z2⟩ := n0.add_fl hf hG' (near_self dL) (N := 1e-6) (dl.trans (by norm_num))
    exact (z1.modpi2F hf (by rw [uuR, wwR]; norm_num) z2).mono (by rw [uuR, wwR]; norm_num)
  · have n := ((near_self b).add (near_self dB)).rnd hf (M := 0.62) ((abs_add_le _ _).trans (by
      norm_num at hb db ⊢; linarith)) (e' := 1e-16) (by rw [uuR, wwR]; norm_num)
    have t := abs_add_le ((fl (b + dB) : ℝ) - (b + dB)) dB
    rw [show (fl (b + dB) : ℝ) - (b + dB) + dB = fl (b + dB) - b by ring] at t
    unfold Near at n
    norm_num at n t db ⊢; linarith

end Verif

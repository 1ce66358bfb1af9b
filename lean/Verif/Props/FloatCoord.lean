import Verif.Lemmas.FloatCoord
import Verif.Props.FloatLunar

/-!
# C79: the coordinate transformations in binary64

`eclToEqu`, `equToEcl` and `equToHoriz` are the transformations in real arithmetic, which are rotations
(C35 to C37).
-/

namespace Verif
open Real

theorem NearA.turn {X : ℚ} {x e : ℝ} (h : NearA X x e) : TurnNear X x e := h

/-- Reduction modulo the float `2 pi` of a result of `arctan2`. -/
theorem atan2F_modpi2 {fl : ℚ → ℚ} (hf : FloatLike fl) {lib : TrigLib} {N : ℕ} (hl : lib.Good fl N) {Y X : ℚ}
    {θ e : ℝ} (he : e ≤ 1) (h : NearA (lib.atan2F Y X) θ e) :
    TurnNear (modpi2F fl pi2F (lib.atan2F Y X)) (modpi2 θ) (e + 2.5e-15) := by
  have r : |((lib.atan2F Y X : ℚ) : ℝ)| ≤ 3.15 := by
    have := (Rat.cast_le (K := ℝ)).mpr (hl.atan2_range Y X)
    push_cast at this
    refine this.trans ?_
    unfold piF; norm_num
  obtain ⟨k, hk⟩ := h.modpi2F hf he r
  obtain ⟨j, hj⟩ := (modpi2_spec θ).2.2
  refine ⟨k - j, ?_⟩
  have : modpi2 θ + ((k - j : ℤ) : ℝ) * (2 * π) = θ + k * (2 * π) := by rw [hj]; push_cast; ring
  rw [this]
  exact hk.mono (by norm_num)

theorem over_c {c : ℝ} (h : 2e-14 ≤ c) (h1 : c ≤ 1) : 2e-14 / c ≤ 1 ∧ 2e-14 / c + 2.5e-15 ≤ 2.3e-14 / c := by
  have c0 : 0 < c := lt_of_lt_of_le (by norm_num) h
  constructor
  · rw [div_le_iff₀ c0]; linarith
  · have : (2.5e-15 : ℝ) ≤ 2.5e-15 / c := by rw [le_div_iff₀ c0]; norm_num; linarith
    have e : (2e-14 : ℝ) / c + 2.5e-15 / c = 2.25e-14 / c := by rw [← add_div]; norm_num
    have : (2.25e-14 : ℝ) / c ≤ 2.3e-14 / c := div_le_div_of_nonneg_right (by norm_num) c0.le
    linarith

/-- C79: `ecl_to_equ`.  With `c` the cosine of the exact declination, the right ascension has an error of
at most `2.3e-14 / c` radian (whole turns aside) if `c ≥ 2e-14`.  If the result is more than `1e-7` radian
from the celestial poles the declination is a number, with an error of at most `1.7e-14 / c`; nearer to
the poles it can be nan, and if it is not, its sine is right to `6e-15`. -/
theorem ecl_to_equ_float {fl : ℚ → ℚ} (hf : FloatLike fl) {lib : TrigLib} {N : ℕ} (hl : lib.Good fl N)
    (l b e : ℚ) (hb : 0 < cos (b : ℝ)) :
    (0 ≤ (eclToEquF fl lib l b e).1 ∧ (eclToEquF fl lib l b e).1 ≤ pi2F) ∧
    (2e-14 ≤ cos (eclToEqu l b e).2 →
      TurnNear (eclToEquF fl lib l b e).1 (eclToEqu l b e).1 (2.3e-14 / cos (eclToEqu l b e).2)) ∧
    (1e-7 ≤ cos (eclToEqu l b e).2 → ∃ d, (eclToEquF fl lib l b e).2 = some d ∧
      |(d : ℝ) - (eclToEqu l b e).2| ≤ 1.7e-14 / cos (eclToEqu l b e).2) ∧
    ∀ d, (eclToEquF fl lib l b e).2 = some d → |sin (d : ℝ) - sin (eclToEqu l b e).2| ≤ 6e-15 := by
  have u := turnX_unit e (direction l b)
  rw [direction_unit] at u
  obtain ⟨p1, p2⟩ := prod1_near hf (hl.num.sin l) (hl.num.cos e) (abs_sin_le_one _) (abs_cos_le_one _)
  obtain ⟨q1, q2⟩ := prodT_near hf (hl.tanG b) (hl.num.sin e) (abs_sin_le_one _)
  obtain ⟨r1, r2⟩ := prod1_near hf (hl.num.sin b) (hl.num.cos e) (abs_sin_le_one _) (abs_cos_le_one _)
  obtain ⟨s1, s2⟩ := prod3_near hf (hl.num.cos b) (hl.num.sin e) (hl.num.sin l) (abs_cos_le_one _)
    (abs_sin_le_one _) (abs_sin_le_one _)
  have nY := (sumT_near hf p1 q1 p2 q2).2
  have h1 : (cos (b : ℝ) * cos (l : ℝ)) ^ 2 + (cos (b : ℝ) * (sin (l : ℝ) * cos (e : ℝ) - tan b * sin (e : ℝ))) ^ 2 +
      (sin (b : ℝ) * cos (e : ℝ) + cos (b : ℝ) * sin (e : ℝ) * sin (l : ℝ)) ^ 2 = 1 := by
    rw [← u]
    simp only [turnX, direction]
    have : cos (b : ℝ) * (sin (l : ℝ) * cos (e : ℝ) - tan b * sin (e : ℝ)) =
        cos (b : ℝ) * sin (l : ℝ) * cos (e : ℝ) - sin b * sin (e : ℝ) := by
      rw [Real.tan_eq_sin_div_cos]; field_simp
    rw [this]; ring
  have zb : |sin (b : ℝ) * cos (e : ℝ) + cos (b : ℝ) * sin (e : ℝ) * sin (l : ℝ)| ≤ 1 :=
    (sq_le_one_iff_abs_le_one _).mp (by
      have t1 := sq_nonneg (cos (b : ℝ) * cos (l : ℝ))
      have t2 := sq_nonneg (cos (b : ℝ) * (sin (l : ℝ) * cos (e : ℝ) - tan b * sin (e : ℝ)))
      nlinarith)
  have nZ := sumZ_near hf r1 s1 r2 s2 zb
  have ct := cos_tan_le hb
  obtain ⟨m1, m2, m3⟩ := dir_near hl hb h1 (hl.num.cos l) nY nZ (by
    have c1 := Real.cos_le_one (b : ℝ)
    generalize |tan (b : ℝ)| = t at *
    generalize cos (b : ℝ) = k at *
    norm_num at ct ⊢
    nlinarith)
  have c1 := Real.cos_le_one (eclToEqu l b e).2
  refine ⟨modpi2F_range hf _, fun h => ?_, m2, ?_⟩
  · obtain ⟨o1, o2⟩ := over_c h c1
    obtain ⟨k, hk⟩ := atan2F_modpi2 hf hl o1 (m1 h)
    exact ⟨k, hk.trans o2⟩
  · have : sin (eclToEqu l b e).2 = sin (b : ℝ) * cos (e : ℝ) + cos (b : ℝ) * sin (e : ℝ) * sin (l : ℝ) := by
      unfold eclToEqu
      exact Real.sin_arcsin (abs_le.mp zb).1 (abs_le.mp zb).2
    rw [this]
    exact m3

/-- C79: within 0.2 radian of the ecliptic, for an obliquity of at most 25 degrees (0.437 radian), `ecl_to_equ`
always returns numbers, with errors of at most `3e-14` radian. -/
theorem ecl_to_equ_float_zodiac {fl : ℚ → ℚ} (hf : FloatLike fl) {lib : TrigLib} {N : ℕ} (hl : lib.Good fl N)
    (l b e : ℚ) (hb : |b| ≤ 0.2) (he : |e| ≤ 0.437) :
    ∃ ra dec : ℚ, eclToEquF fl lib l b e = (ra, some dec) ∧ TurnNear ra (eclToEqu l b e).1 3e-14 ∧
      |(dec : ℝ) - (eclToEqu l b e).2| ≤ 3e-14 := by
  have hb' : |(b : ℝ)| ≤ 0.2 := by have := (Rat.cast_le (K := ℝ)).mpr hb; push_cast at this; exact this
  have he' : |(e : ℝ)| ≤ 0.437 := by have := (Rat.cast_le (K := ℝ)).mpr he; push_cast at this; exact this
  have cb : 0 < cos (b : ℝ) := by
    obtain ⟨h1, h2⟩ := abs_le.mp hb'
    have := Real.pi_gt_three
    exact Real.cos_pos_of_mem_Ioo ⟨by norm_num at h1 ⊢; linarith, by norm_num at h2 ⊢; linarith⟩
  have c : 0.77 ≤ cos (eclToEqu l b e).2 := by
    unfold eclToEqu
    simp only
    rw [Real.cos_arcsin]
    apply Real.le_sqrt_of_sq_le
    have z : |sin (b : ℝ) * cos (e : ℝ) + cos (b : ℝ) * sin (e : ℝ) * sin (l : ℝ)| ≤ 0.637 := by
      refine (abs_add_le _ _).trans ?_
      rw [abs_mul, abs_mul, abs_mul]
      have s1 : |sin (b : ℝ)| ≤ 0.2 := (Real.abs_sin_le_abs).trans hb'
      have s2 : |sin (e : ℝ)| ≤ 0.437 := (Real.abs_sin_le_abs).trans he'
      have t1 : |sin (b : ℝ)| * |cos (e : ℝ)| ≤ 0.2 * 1 := mul_le_mul s1 (abs_cos_le_one _) (abs_nonneg _) (by norm_num)
      have t2 : |cos (b : ℝ)| * |sin (e : ℝ)| ≤ 1 * 0.437 := mul_le_mul (abs_cos_le_one _) s2 (abs_nonneg _) (by norm_num)
      have t3 : |cos (b : ℝ)| * |sin (e : ℝ)| * |sin (l : ℝ)| ≤ 1 * 0.437 * 1 :=
        mul_le_mul t2 (abs_sin_le_one _) (abs_nonneg _) (by norm_num)
      norm_num at t1 t3 ⊢; linarith
    have := sq_le_sq' (neg_le_of_abs_le z) (le_of_abs_le z)
    norm_num at this ⊢; linarith
  obtain ⟨-, h1, h2, -⟩ := ecl_to_equ_float hf hl l b e cb
  obtain ⟨k, h1⟩ := h1 (le_trans (by norm_num) c)
  obtain ⟨d, h2, h3⟩ := h2 (le_trans (by norm_num) c)
  have c0 : 0 < cos (eclToEqu l b e).2 := lt_of_lt_of_le (by norm_num) c
  refine ⟨(eclToEquF fl lib l b e).1, d, by rw [← h2], ⟨k, h1.trans ?_⟩, h3.trans ?_⟩ <;>
  · rw [div_le_iff₀ c0]; norm_num at c ⊢; linarith

/-- C79: `equ_to_ecl`.  The latitude is again returned modulo the float `2 pi`. -/
theorem equ_to_ecl_float {fl : ℚ → ℚ} (hf : FloatLike fl) {lib : TrigLib} {N : ℕ} (hl : lib.Good fl N)
    (a d e : ℚ) (hd : 0 < cos (d : ℝ)) :
    (0 ≤ (equToEclF fl lib a d e).1 ∧ (equToEclF fl lib a d e).1 ≤ pi2F) ∧
    (2e-14 ≤ cos (equToEcl a d e).2 →
      TurnNear (equToEclF fl lib a d e).1 (equToEcl a d e).1 (2.3e-14 / cos (equToEcl a d e).2)) ∧
    (1e-7 ≤ cos (equToEcl a d e).2 → ∃ b, (equToEclF fl lib a d e).2 = some b ∧
      TurnNear b (equToEcl a d e).2 (2e-14 / cos (equToEcl a d e).2)) ∧
    ∀ b, (equToEclF fl lib a d e).2 = some b → |sin (b : ℝ) - sin (equToEcl a d e).2| ≤ 9e-15 := by
  have u := turnX_unit (-e) (direction a d)
  rw [direction_unit] at u
  obtain ⟨p1, p2⟩ := prod1_near hf (hl.num.sin a) (hl.num.cos e) (abs_sin_le_one _) (abs_cos_le_one _)
  obtain ⟨q1, q2⟩ := prodT_near hf (hl.tanG d) (hl.num.sin e) (abs_sin_le_one _)
  obtain ⟨r1, r2⟩ := prod1_near hf (hl.num.sin d) (hl.num.cos e) (abs_sin_le_one _) (abs_cos_le_one _)
  obtain ⟨s1, s2⟩ := prod3_near hf (hl.num.cos d) (hl.num.sin e) (hl.num.sin a) (abs_cos_le_one _)
    (abs_sin_le_one _) (abs_sin_le_one _)
  have nY := (sumT_near hf p1 q1 p2 q2).1
  have h1 : (cos (d : ℝ) * cos (a : ℝ)) ^ 2 + (cos (d : ℝ) * (sin (a : ℝ) * cos (e : ℝ) + tan d * sin (e : ℝ))) ^ 2 +
      (sin (d : ℝ) * cos (e : ℝ) - cos (d : ℝ) * sin (e : ℝ) * sin (a : ℝ)) ^ 2 = 1 := by
    rw [← u]
    simp only [turnX, direction, cos_neg, sin_neg]
    have : cos (d : ℝ) * (sin (a : ℝ) * cos (e : ℝ) + tan d * sin (e : ℝ)) =
        cos (d : ℝ) * sin (a : ℝ) * cos (e : ℝ) + sin d * sin (e : ℝ) := by
      rw [Real.tan_eq_sin_div_cos]; field_simp
    rw [this]; ring
  have zb : |sin (d : ℝ) * cos (e : ℝ) - cos (d : ℝ) * sin (e : ℝ) * sin (a : ℝ)| ≤ 1 :=
    (sq_le_one_iff_abs_le_one _).mp (by
      have t1 := sq_nonneg (cos (d : ℝ) * cos (a : ℝ))
      have t2 := sq_nonneg (cos (d : ℝ) * (sin (a : ℝ) * cos (e : ℝ) + tan d * sin (e : ℝ)))
      nlinarith)
  have nZ := sumZ_near' hf r1 s1 r2 s2 zb
  have ct := cos_tan_le hd
  obtain ⟨m1, m2, m3⟩ := dir_near hl hd h1 (hl.num.cos a) nY nZ (by
    have c1 := Real.cos_le_one (d : ℝ)
    generalize |tan (d : ℝ)| = t at *
    generalize cos (d : ℝ) = k at *
    norm_num at ct ⊢
    nlinarith)
  have ce : cos (equToEcl a d e).2 =
      cos (arcsin (sin (d : ℝ) * cos (e : ℝ) - cos (d : ℝ) * sin (e : ℝ) * sin (a : ℝ))) := by
    unfold equToEcl; exact cos_modpi2 _
  have se : sin (equToEcl a d e).2 = sin (d : ℝ) * cos (e : ℝ) - cos (d : ℝ) * sin (e : ℝ) * sin (a : ℝ) := by
    unfold equToEcl
    simp only
    rw [sin_modpi2]
    exact Real.sin_arcsin (abs_le.mp zb).1 (abs_le.mp zb).2
  have c1 := Real.cos_le_one (equToEcl a d e).2
  rw [se]
  rw [ce] at c1 ⊢
  refine ⟨modpi2F_range hf _, fun h => ?_, fun h => ?_, ?_⟩
  · obtain ⟨o1, o2⟩ := over_c h c1
    obtain ⟨k, hk⟩ := atan2F_modpi2 hf hl o1 (m1 h)
    exact ⟨k, hk.trans o2⟩
  · obtain ⟨b, g1, g2⟩ := m2 h
    have c0 := lt_of_lt_of_le (show (0 : ℝ) < 1e-7 by norm_num) h
    have t1 := Real.neg_pi_div_two_le_arcsin (sin (d : ℝ) * cos (e : ℝ) - cos (d : ℝ) * sin (e : ℝ) * sin (a : ℝ))
    have t2 := Real.arcsin_le_pi_div_two (sin (d : ℝ) * cos (e : ℝ) - cos (d : ℝ) * sin (e : ℝ) * sin (a : ℝ))
    refine ⟨modpi2F fl pi2F b, ?_, ?_⟩
    · unfold equToEclF
      simp only [g1, Option.map_some]
    · unfold equToEcl
      simp only
      generalize sin (d : ℝ) * cos (e : ℝ) - cos (d : ℝ) * sin (e : ℝ) * sin (a : ℝ) = z at *
      have hp := Real.pi_lt_d4
      have sm : 1.7e-14 / cos (arcsin z) ≤ 1 := by rw [div_le_iff₀ c0]; norm_num at h ⊢; linarith
      obtain ⟨k, hk⟩ := modpi2F_nearA hf (X := b) (x := arcsin z) (M := 1.6) g2 sm (by
        rw [abs_le]; norm_num at hp ⊢; constructor <;> linarith)
      obtain ⟨j, hj⟩ := (modpi2_spec (arcsin z)).2.2
      refine ⟨k - j, ?_⟩
      have : modpi2 (arcsin z) + ((k - j : ℤ) : ℝ) * (2 * π) = arcsin z + k * (2 * π) := by rw [hj]; push_cast; ring
      rw [this]
      refine hk.trans ?_
      have i1 : (2.2e-15 : ℝ) ≤ 2.2e-15 / cos (arcsin z) := by rw [le_div_iff₀ c0]; norm_num; linarith
      have e1 : (1.7e-14 : ℝ) / cos (arcsin z) + 2.2e-15 / cos (arcsin z) = 1.92e-14 / cos (arcsin z) := by
        rw [← add_div]; norm_num
      have e2 : (1.92e-14 : ℝ) / cos (arcsin z) ≤ 2e-14 / cos (arcsin z) :=
        div_le_div_of_nonneg_right (by norm_num) c0.le
      norm_num at i1 e1 e2 ⊢
      linarith
  · intro b hb
    unfold equToEclF at hb
    simp only [Option.map_eq_some_iff] at hb
    obtain ⟨b', g1, g2⟩ := hb
    have g3 := m3 b' g1
    subst g2
    have f2 : |fl (fl (lib.sinF d * lib.cosF e) - fl (fl (lib.cosF d * lib.sinF e) * lib.sinF a))| ≤ 1 := by
      by_contra hn
      rw [hl.asin_nan _ (not_le.mp hn)] at g1
      exact absurd g1 (by simp)
    obtain ⟨b2, g4, g5⟩ := hl.asin _ f2
    rw [g1, Option.some.injEq] at g4
    subst g4
    have b1 : |(b' : ℝ)| ≤ 1.7 := by
      have t1 := Real.neg_pi_div_two_le_arcsin (fl (fl (lib.sinF d * lib.cosF e) - fl (fl (lib.cosF d * lib.sinF e) * lib.sinF a)) : ℝ)
      have t2 := Real.arcsin_le_pi_div_two (fl (fl (lib.sinF d * lib.cosF e) - fl (fl (lib.cosF d * lib.sinF e) * lib.sinF a)) : ℝ)
      have hp := Real.pi_lt_d4
      obtain ⟨g6, g7⟩ := abs_le.mp g5
      rw [abs_le]
      norm_num at hp g6 g7 ⊢
      constructor <;> linarith
    obtain ⟨k, hk⟩ := modpi2F_nearA hf (near_self b') (by norm_num) b1
    have t := Real.abs_sin_sub_sin_le (modpi2F fl pi2F b' : ℝ) (b' + k * (2 * π))
    rw [sin_shift] at t
    unfold Near at hk
    have := abs_sub_le (sin (modpi2F fl pi2F b' : ℝ)) (sin (b' : ℝ))
      (sin (d : ℝ) * cos (e : ℝ) - cos (d : ℝ) * sin (e : ℝ) * sin (a : ℝ))
    norm_num at hk g3 ⊢
    linarith

/-- C79: `equ_to_horiz`, with `c` the cosine of the exact altitude. -/
theorem equ_to_horiz_float {fl : ℚ → ℚ} (hf : FloatLike fl) {lib : TrigLib} {N : ℕ} (hl : lib.Good fl N)
    (phi H d : ℚ) (hd : 0 < cos (d : ℝ)) :
    (2e-14 ≤ cos (equToHoriz phi H d).2 →
      TurnNear (equToHorizF fl lib phi H d).1 (equToHoriz phi H d).1 (2e-14 / cos (equToHoriz phi H d).2)) ∧
    (1e-7 ≤ cos (equToHoriz phi H d).2 → ∃ h, (equToHorizF fl lib phi H d).2 = some h ∧
      |(h : ℝ) - (equToHoriz phi H d).2| ≤ 1.7e-14 / cos (equToHoriz phi H d).2) ∧
    ∀ h, (equToHorizF fl lib phi H d).2 = some h → |sin (h : ℝ) - sin (equToHoriz phi H d).2| ≤ 6e-15 := by
  have u := toHorizon_unit phi (direction H d)
  rw [direction_unit] at u
  obtain ⟨p1, p2⟩ := prod1_near hf (hl.num.cos H) (hl.num.sin phi) (abs_cos_le_one _) (abs_sin_le_one _)
  obtain ⟨q1, q2⟩ := prodT_near hf (hl.tanG d) (hl.num.cos phi) (abs_cos_le_one _)
  obtain ⟨r1, r2⟩ := prod1_near hf (hl.num.sin phi) (hl.num.sin d) (abs_sin_le_one _) (abs_sin_le_one _)
  obtain ⟨s1, s2⟩ := prod3_near hf (hl.num.cos phi) (hl.num.cos d) (hl.num.cos H) (abs_cos_le_one _)
    (abs_cos_le_one _) (abs_cos_le_one _)
  have nX := (sumT_near hf p1 q1 p2 q2).2
  have h1 : (cos (d : ℝ) * (cos (H : ℝ) * sin (phi : ℝ) - tan d * cos (phi : ℝ))) ^ 2 +
      (cos (d : ℝ) * sin (H : ℝ)) ^ 2 +
      (sin (phi : ℝ) * sin (d : ℝ) + cos (phi : ℝ) * cos (d : ℝ) * cos (H : ℝ)) ^ 2 = 1 := by
    rw [← u]
    simp only [toHorizon, direction]
    have : cos (d : ℝ) * (cos (H : ℝ) * sin (phi : ℝ) - tan d * cos (phi : ℝ)) =
        cos (d : ℝ) * cos (H : ℝ) * sin (phi : ℝ) - sin d * cos (phi : ℝ) := by
      rw [Real.tan_eq_sin_div_cos]; field_simp
    rw [this]; ring
  have zb : |sin (phi : ℝ) * sin (d : ℝ) + cos (phi : ℝ) * cos (d : ℝ) * cos (H : ℝ)| ≤ 1 :=
    (sq_le_one_iff_abs_le_one _).mp (by
      have t1 := sq_nonneg (cos (d : ℝ) * sin (H : ℝ))
      have t2 := sq_nonneg (cos (d : ℝ) * (cos (H : ℝ) * sin (phi : ℝ) - tan d * cos (phi : ℝ)))
      nlinarith)
  have nZ := sumZ_near hf r1 s1 r2 s2 zb
  have ct := cos_tan_le hd
  obtain ⟨m1, m2, m3⟩ := dir_near hl hd h1 nX (hl.num.sin H) nZ (by
    have c1 := Real.cos_le_one (d : ℝ)
    generalize |tan (d : ℝ)| = t at *
    generalize cos (d : ℝ) = k at *
    norm_num at ct ⊢
    nlinarith)
  refine ⟨m1, m2, ?_⟩
  have : sin (equToHoriz phi H d).2 = sin (phi : ℝ) * sin (d : ℝ) + cos (phi : ℝ) * cos (d : ℝ) * cos (H : ℝ) := by
    unfold equToHoriz
    exact Real.sin_arcsin (abs_le.mp zb).1 (abs_le.mp zb).2
  rw [this]
  exact m3

/-! ### The assumptions can be met -/

theorem trigLib_exists (D : ℕ) (sumF : List ℚ → ℚ) (fl : ℚ → ℚ) (hs : SumLike fl 1400 D sumF) :
    ∃ lib : TrigLib, lib.Good fl D := by
  have ex : ∀ y : ℝ, ∃ q : ℚ, |(q : ℝ) - y| ≤ 1 / 2 ^ 50 := by
    intro y
    obtain ⟨q, h1, h2⟩ := exists_rat_btwn (show y - 1 / 2 ^ 50 < y by norm_num)
    exact ⟨q, abs_le.mpr ⟨by linarith, by norm_num at h2 ⊢; linarith⟩⟩
  have ex2 : ∀ y : ℝ, |y| ≤ π → ∃ q : ℚ, |(q : ℝ) - y| ≤ 1 / 2 ^ 50 ∧ |q| ≤ piF := by
    intro y hy
    have hp := piF_near
    unfold Near at hp
    obtain ⟨p1, p2⟩ := abs_le.mp hp
    obtain ⟨y1, y2⟩ := abs_le.mp hy
    norm_num at p1 p2
    have pos : (1 : ℝ) < piF := by unfold piF; norm_num
    obtain ⟨q, h1, h2⟩ := exists_rat_btwn (show max (-(piF : ℝ)) (y - 1 / 2 ^ 50) < min (piF : ℝ) (y + 1 / 2 ^ 50) by
      rw [max_lt_iff]
      constructor <;> rw [lt_min_iff] <;> constructor <;> linarith)
    rw [max_lt_iff] at h1
    rw [lt_min_iff] at h2
    refine ⟨q, abs_le.mpr ⟨by linarith [h1.2], by linarith [h2.2]⟩, abs_le.mpr ⟨?_, ?_⟩⟩
    · have := h1.1.le; exact_mod_cast this
    · have := h2.1.le; exact_mod_cast this
  choose f hf using ex
  have ab : ∀ y x : ℚ, |arctan2 y x| ≤ π := fun y x => Complex.abs_arg_le_pi _
  choose g hg using fun y x : ℚ => ex2 (arctan2 y x) (ab y x)
  refine ⟨⟨⟨fun x => f (Real.cos x), fun x => f (Real.sin x), fun x => f (Real.tan x), sumF⟩, g,
    fun x => if |x| ≤ 1 then some (f (Real.arcsin x)) else none⟩,
    ⟨fun x => hf _, fun x => hf _, fun x _ => hf _, hs⟩, fun x => (hf _).trans ?_, fun y x _ => ⟨0, ?_⟩,
    fun y x => (hg y x).2, fun x hx => ⟨f (Real.arcsin x), if_pos hx, hf _⟩, fun x hx => if_neg (not_le.mpr hx)⟩
  · have := abs_nonneg (Real.tan x)
    rw [mul_add, mul_one]
    exact le_add_of_nonneg_right (by positivity)
  · push_cast
    rw [zero_mul, add_zero]; exact (hg y x).1

example : ∃ lib : TrigLib, lib.Good rne 64 :=
  trigLib_exists 64 (halfSum rne 64) rne fun l h => halfSum_flSum rne 64 l (h.trans (by norm_num))

example : |(1 / 10 : ℚ)| ≤ 0.2 ∧ |(0.4091 : ℚ)| ≤ 0.437 ∧ 0 < cos (((1 / 10 : ℚ)) : ℝ) := by
  refine ⟨by norm_num [abs_of_pos], by norm_num [abs_of_pos], Real.cos_pos_of_mem_Ioo ⟨?_, ?_⟩⟩ <;>
  · have := Real.pi_gt_three
    push_cast; linarith

end Verif

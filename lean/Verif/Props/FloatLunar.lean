import Verif.Lemmas.FloatLunar
import Verif.Props.Lunar
import Verif.Props.MoonMotion
import Verif.Props.FloatEquinox

/-!
# C78: the Moon in binary64

`lib` stands for the functions of NumPy, `fl` for the rounding.  The real functions on the right are
those of C45, C62 and C72, which are tied to their formulas there.
-/

namespace Verif
open Real

/-- `X` is `x` up to whole turns and an error of `e` radians. -/
def TurnNear (X x e : ℝ) : Prop := ∃ k : ℤ, |X - (x + k * (2 * π))| ≤ e

/-- C78: within 2000 years of J2000 the rounding errors are at most `2.7e-10` radian in longitude,
`6e-11` radian in latitude and 1.4 centimetres in distance. -/
theorem lunar_float {fl : ℚ → ℚ} (hf : FloatLike fl) {lib : NumLib} {D : ℕ} (hl : lib.Good fl D) (jd : ℚ)
    (h : |centuries jd| ≤ 20) :
    ∃ L B R : ℚ, lunarDimension3F fl lib jd = (L, B, R) ∧ TurnNear L (lunarLongitude jd) 2.7e-10 ∧
      |(B : ℝ) - lunarLatitude jd| ≤ 6e-11 ∧ |(R : ℝ) - lunarRadius jd| ≤ 1.4e-5 :=
  ⟨_, _, _, rfl, (lunarLongitudeF_near hf hl h).1, lunarLatitudeF_near hf hl h, lunarRadiusF_near hf hl h⟩

/-- C78: the computed distance and latitude stay in the ranges of C45. -/
theorem lunar_float_bounds {fl : ℚ → ℚ} (hf : FloatLike fl) {lib : NumLib} {D : ℕ} (hl : lib.Good fl D) (jd : ℚ)
    (h : |centuries jd| ≤ 20) :
    ∃ L B R : ℚ, lunarDimension3F fl lib jd = (L, B, R) ∧ |(L : ℝ)| ≤ 6.46 ∧ |(B : ℝ)| < deg 6.101 ∧
      350000 - 1.4e-5 < (R : ℝ) ∧ (R : ℝ) < 420000 + 1.4e-5 := by
  obtain ⟨r1, r2, b1⟩ := lunar_bounds jd h
  have hB := lunarLatitudeF_near hf hl (jd := jd) h
  have hR := lunarRadiusF_near hf hl (jd := jd) h
  refine ⟨_, _, _, rfl, (lunarLongitudeF_near hf hl h).2, ?_, ?_, ?_⟩
  · have := hB.abs b1.le
    refine this.trans_lt ?_
    unfold deg
    have := Real.pi_gt_d4
    norm_num at this ⊢; linarith
  · obtain ⟨h1, -⟩ := abs_le.mp hR; linarith
  · obtain ⟨-, h1⟩ := abs_le.mp hR; linarith

/-- C78: `dimension` gives the three values of `dimension3` and refuses every other name. -/
theorem lunar_float_dimension (fl : ℚ → ℚ) (lib : NumLib) (jd : ℚ) :
    lunarDimension3F fl lib jd = (lunarLongitudeF fl lib jd, lunarLatitudeF fl lib jd, lunarRadiusF fl lib jd) ∧
    lunarDimensionF fl lib jd "L" = .ok (lunarLongitudeF fl lib jd) ∧
    lunarDimensionF fl lib jd "B" = .ok (lunarLatitudeF fl lib jd) ∧
    lunarDimensionF fl lib jd "R" = .ok (lunarRadiusF fl lib jd) ∧
    ∀ dim, dim ≠ "L" → dim ≠ "B" → dim ≠ "R" →
      lunarDimensionF fl lib jd dim = .error (.Error "lunar" ("unknown dimension = " ++ dim)) := by
  refine ⟨rfl, by simp [lunarDimensionF], by simp [lunarDimensionF], by simp [lunarDimensionF], ?_⟩
  intro dim h1 h2 h3
  simp [lunarDimensionF, h1, h2, h3]

/-- C78: the six mean angles have rounding errors of at most `1.9e-10` radian and lie between 0 and the
float `2 pi`. -/
theorem lunar_mean_float {fl : ℚ → ℚ} (hf : FloatLike fl) (jd : ℚ) (h : |centuries jd| ≤ 20) :
    ∀ p ∈ [(lunarNodeF fl jd, lunarNode jd), (lunarPerigeeF fl jd, lunarPerigee jd),
      (lunarMeanLongitudeF fl jd, lunarMeanLongitude jd), (lunarMeanElongationF fl jd, lunarMeanElongation jd),
      (lunarMeanAnomalyF fl jd, lunarMeanAnomaly jd),
      (lunarArgumentOfLatitudeF fl jd, lunarArgumentOfLatitude jd)],
      TurnNear p.1 p.2 1.9e-10 ∧ 0 ≤ p.1 ∧ p.1 ≤ pi2F := by
  have key : ∀ (qs : List ℚ) (k : List ℝ), qs ∈ [degL1, degD, degM, degM1, degF, degA1, degA2, degA3, dego, degPerigee] →
      (qs.map fun q : ℚ => dToR (q : ℝ)) = k →
      TurnNear (meanAngleF fl qs jd) (modpi2 (polyR k (jcent jd))) 1.9e-10 ∧ 0 ≤ meanAngleF fl qs jd ∧
        meanAngleF fl qs jd ≤ pi2F := by
    intro qs k hq e
    obtain ⟨r, n, hn⟩ := ang_ok hf (jd := jd) h hq
    refine ⟨?_, r.1, r.2⟩
    obtain ⟨j, hj⟩ := (modpi2_spec (polyR k (jcent jd))).2.2
    rw [e] at hn
    refine ⟨n - j, ?_⟩
    have : modpi2 (polyR k (jcent jd)) + ((n - j : ℤ) : ℝ) * (2 * π) = polyR k (jcent jd) + n * (2 * π) := by
      rw [hj]; push_cast; ring
    rw [this]; exact hn
  intro p hp
  simp only [List.mem_cons, List.not_mem_nil, or_false] at hp
  rcases hp with rfl | rfl | rfl | rfl | rfl | rfl
  · exact key dego ko (by simp) dego_eq
  · exact key degPerigee _ (by simp) (by unfold degPerigee; simp only [List.map]; push_cast; rfl)
  · exact key degL1 kL1 (by simp) degL1_eq
  · exact key degD kD (by simp) degD_eq
  · exact key degM1 kM1 (by simp) degM1_eq
  · exact key degF kF (by simp) degF_eq

/-- C78: in binary64 too the Moon always advances, by 10.9 to 15.45 degrees a day up to `5.4e-10` radian.
In particular the later of two instants at least `3e-9` day (a quarter of a millisecond) apart has the
larger computed longitude, whole turns aside. -/
theorem lunar_float_advances {fl : ℚ → ℚ} (hf : FloatLike fl) {lib : NumLib} {D : ℕ} (hl : lib.Good fl D) :
    ∃ lon : ℚ → ℝ, (∀ jd : ℚ, |centuries jd| ≤ 20 → TurnNear (lunarLongitudeF fl lib jd) (lon jd) 0) ∧
      ∀ t u : ℚ, |centuries t| ≤ 20 → |centuries u| ≤ 20 → t ≤ u →
        deg (10.9 * (u - t)) - 5.4e-10 ≤ lon u - lon t ∧ lon u - lon t ≤ deg (15.45 * (u - t)) + 5.4e-10 ∧
        (3e-9 ≤ u - t → lon t < lon u) := by
  have key : ∀ jd : ℚ, ∃ y : ℝ, |centuries jd| ≤ 20 →
      TurnNear (lunarLongitudeF fl lib jd) y 0 ∧ |y - moonLambda jd| ≤ 2.7e-10 := by
    intro jd
    by_cases h : |centuries jd| ≤ 20
    · obtain ⟨k, hk⟩ := (lunarLongitudeF_near hf hl (jd := jd) h).1
      obtain ⟨j, hj⟩ := moonLambda_congr jd
      refine ⟨lunarLongitudeF fl lib jd - (k + j : ℤ) * (2 * π), fun _ => ⟨⟨k + j, ?_⟩, ?_⟩⟩
      · rw [sub_add_cancel, sub_self, abs_zero]
      · unfold Near at hk
        rw [hj] at hk
        push_cast
        rw [show (lunarLongitudeF fl lib jd : ℝ) - (k + j) * (2 * π) - moonLambda jd =
          lunarLongitudeF fl lib jd - (moonLambda jd + j * (2 * π) + k * (2 * π)) by ring]
        exact hk
    · exact ⟨0, fun h' => absurd h' h⟩
  choose lon hlon using key
  refine ⟨lon, fun jd h => (hlon jd h).1, fun t u ht hu htu => ?_⟩
  obtain ⟨a1, a2⟩ := abs_le.mp (hlon t ht).2
  obtain ⟨b1, b2⟩ := abs_le.mp (hlon u hu).2
  obtain ⟨m1, m2⟩ := moon_advance ht hu (by exact_mod_cast htu)
  norm_num at a1 a2 b1 b2
  refine ⟨by norm_num at m1 ⊢; linarith, by norm_num at m2 ⊢; linarith, fun h3 => ?_⟩
  have h3' : (3e-9 : ℝ) ≤ u - t := by have := (Rat.cast_le (K := ℝ)).mpr h3; push_cast at this; exact this
  have : (5.5e-10 : ℝ) ≤ deg (10.9 * (u - t)) := by
    unfold deg
    have p := Real.pi_gt_d4
    have q : (3e-9 : ℝ) * 3.1415 ≤ (u - t) * π := mul_le_mul h3' p.le (by norm_num) (le_trans (by norm_num) h3')
    norm_num at q ⊢; linarith
  norm_num at m1 this
  linarith

/-- The year 1986. -/
example : |centuries ((2446470 : ℚ) : ℝ)| ≤ 20 := by unfold centuries; rw [abs_le]; norm_num

end Verif

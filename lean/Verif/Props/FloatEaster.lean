import Verif.Props.Easter
import Verif.Lemmas.FloatEaster

/-!
# C82: Easter for years given as floats
-/

namespace Verif
open Spec

section
variable {fl : ℚ → ℚ} (hf : FloatLike fl)
include hf

/-- C82: for whole years, up to `2^45` in size, given as floats `easter` returns the same month and day as
for whole numbers. -/
theorem easter_float (y : ℤ) (hy : |y| ≤ 2 ^ 45) (g : Bool) :
    easterF fl y g = (((easter1 y g).1 : ℚ), ((easter1 y g).2 : ℚ)) := by
  have t : (if g then easterGregorianF fl (y : ℚ) else easterJulianF fl (y : ℚ)) =
      ((if g then easterGregorian y else easterJulian y : ℤ) : ℚ) := by
    cases g
    · exact easterJulianF_int hf y
    · exact easterGregorianF_int hf y hy
  have r : 93 ≤ (if g then easterGregorian y else easterJulian y) ∧ (if g then easterGregorian y else easterJulian y) ≤ 154 := by
    have := (easter_isEaster g y).2
    unfold easter1 at this
    simp only at this
    omega
  unfold easterF easter1
  simp only
  rw [t]
  generalize (if g then easterGregorian y else easterJulian y) = T at *
  have m := idiv hf (a := (T : ℚ)) (b := 31) (y := 31) rfl (by norm_num) (by norm_num) (by rw [abs_le]; omega)
  have d1 := imod hf (a := (T : ℚ)) (b := 31) (y := 31) rfl (by norm_num) (by norm_num) (by norm_num)
  have d := iadd hf (b := 1) (n := 1) d1 (by norm_num) (by rw [abs_le]; omega)
  rw [m, d]
  push_cast
  rfl

/-- C82: so the result is Easter Sunday. -/
theorem easter_float_isEaster (y : ℤ) (hy : |y| ≤ 2 ^ 45) (g : Bool) :
    ∃ m d : ℤ, easterF fl y g = ((m : ℚ), (d : ℚ)) ∧ IsEaster g y m d :=
  ⟨_, _, easter_float hf y hy g, (easter_isEaster g y).1⟩

end

/-- C82: the fraction of a year is not dropped, unlike in the other functions of the calendar.  For the
middle of 2024 the code returns 28 March (Julian calendar), and the day 6.5 of April (Gregorian). -/
theorem easter_fraction {fl : ℚ → ℚ} (hf : FloatLike fl) :
    easterF fl 2024.5 false = (3, 28) ∧ easterF fl 2024.5 true = (4, 6.5) ∧
    ¬ IsEaster false 2024 3 28 ∧ ∀ d : ℤ, (6.5 : ℚ) ≠ d := by
  have half : ∀ (q : ℚ) (k : ℤ), q = k / 2 → |k| ≤ 2 ^ 53 → fl q = q := fun q k e h =>
    hf.fix _ ⟨k, -1, h, by norm_num, by rw [e]; norm_num; ring⟩
  refine ⟨?_, ?_, ?_, ?_⟩
  · have a := floatMod_pos (fl := fl) (x := 2024.5) (y := 4) 506 (by norm_num) (by norm_num) (by norm_num) (by norm_num)
    have b := floatMod_pos (fl := fl) (x := 2024.5) (y := 7) 289 (by norm_num) (by norm_num) (by norm_num) (by norm_num)
    have c := floatMod_pos (fl := fl) (x := 2024.5) (y := 19) 106 (by norm_num) (by norm_num) (by norm_num) (by norm_num)
    have d := floatMod_pos (fl := fl) (x := 214.5) (y := 30) 7 (by norm_num) (by norm_num) (by norm_num) (by norm_num)
    have e := floatMod_pos (fl := fl) (x := 36.5) (y := 7) 5 (by norm_num) (by norm_num) (by norm_num) (by norm_num)
    have f := floatMod_pos (fl := fl) (x := 120) (y := 31) 3 (by norm_num) (by norm_num) (by norm_num) (by norm_num)
    have g := floatFloorDiv_pos hf (x := 120) (y := 31) 3 (by norm_num) (by norm_num) (by norm_num) (by norm_num)
      (by norm_num) (by norm_num)
    have t : easterJulianF fl 2024.5 = 120 := by
      unfold easterJulianF
      simp only
      rw [a, b, c, half (19 * _) 399 (by norm_num) (by norm_num), half (19 * _ + 15) 429 (by norm_num) (by norm_num),
        show (19 * (2024.5 - 19 * ((106 : ℤ) : ℚ)) + 15 : ℚ) = 214.5 by norm_num, d,
        half (2 * _) 2 (by norm_num) (by norm_num), half (4 * _) 12 (by norm_num) (by norm_num),
        half (2 * _ + 4 * _) 14 (by norm_num) (by norm_num), half (_ - (214.5 - _)) 5 (by norm_num) (by norm_num),
        half (_ + 34) 73 (by norm_num) (by norm_num),
        show (2 * (2024.5 - 4 * ((506 : ℤ) : ℚ)) + 4 * (2024.5 - 7 * ((289 : ℤ) : ℚ)) - (214.5 - 30 * ((7 : ℤ) : ℚ)) + 34 : ℚ) =
          36.5 by norm_num, e, half (214.5 - _ + _) 12 (by norm_num) (by norm_num), half _ 240 (by norm_num) (by norm_num)]
      norm_num
    unfold easterF
    simp only [Bool.false_eq_true, if_false]
    rw [t, f]
    push_cast at g
    rw [g, half _ 56 (by norm_num) (by norm_num)]
    norm_num
  · have a := floatMod_pos (fl := fl) (x := 2024.5) (y := 19) 106 (by norm_num) (by norm_num) (by norm_num) (by norm_num)
    have b := floatFloorDiv_pos hf (x := 2024.5) (y := 100) 20 (by norm_num) (by norm_num) (by norm_num) (by norm_num)
      (by norm_num) (by norm_num)
    have c := floatMod_pos (fl := fl) (x := 2024.5) (y := 100) 20 (by norm_num) (by norm_num) (by norm_num) (by norm_num)
    have d := floatFloorDiv_pos hf (x := 20) (y := 4) 5 (by norm_num) (by norm_num) (by norm_num) (by norm_num)
      (by norm_num) (by norm_num)
    have e := floatMod_pos (fl := fl) (x := 20) (y := 4) 5 (by norm_num) (by norm_num) (by norm_num) (by norm_num)
    have f := floatFloorDiv_pos hf (x := 28) (y := 25) 1 (by norm_num) (by norm_num) (by norm_num) (by norm_num)
      (by norm_num) (by norm_num)
    have g := floatFloorDiv_pos hf (x := 20) (y := 3) 6 (by norm_num) (by norm_num) (by norm_num) (by norm_num)
      (by norm_num) (by norm_num)
    have h := floatMod_pos (fl := fl) (x := 223.5) (y := 30) 7 (by norm_num) (by norm_num) (by norm_num) (by norm_num)
    have i := floatFloorDiv_pos hf (x := 24.5) (y := 4) 6 (by norm_num) (by norm_num) (by norm_num) (by norm_num)
      (by norm_num) (by norm_num)
    have k := floatMod_pos (fl := fl) (x := 24.5) (y := 4) 6 (by norm_num) (by norm_num) (by norm_num) (by norm_num)
    have w := floatMod_pos (fl := fl) (x := 30) (y := 7) 4 (by norm_num) (by norm_num) (by norm_num) (by norm_num)
    have m := floatFloorDiv_pos hf (x := 203) (y := 451) 0 (by norm_num) (by norm_num) (by norm_num) (by norm_num)
      (by norm_num) (by norm_num)
    have o := floatMod_pos (fl := fl) (x := 129.5) (y := 31) 4 (by norm_num) (by norm_num) (by norm_num) (by norm_num)
    have p := floatFloorDiv_pos hf (x := 129.5) (y := 31) 4 (by norm_num) (by norm_num) (by norm_num) (by norm_num)
      (by norm_num) (by norm_num)
    push_cast at b d f g i m p
    have a : floatMod fl 2024.5 19 = 10.5 := by rw [a]; norm_num
    have c : floatMod fl 2024.5 100 = 24.5 := by rw [c]; norm_num
    have e : floatMod fl 20 4 = 0 := by rw [e]; norm_num
    have h : floatMod fl 223.5 30 = 13.5 := by rw [h]; norm_num
    have k : floatMod fl 24.5 4 = 0.5 := by rw [k]; norm_num
    have w : floatMod fl 30 7 = 2 := by rw [w]; norm_num
    have o : floatMod fl 129.5 31 = 5.5 := by rw [o]; norm_num
    have t : easterGregorianF fl 2024.5 = 129.5 := by
      unfold easterGregorianF
      simp only
      rw [a, b, c, d, e, half (20 + 8) 56 (by norm_num) (by norm_num), show (20 + 8 : ℚ) = 28 by norm_num, f,
        half (20 - 1) 38 (by norm_num) (by norm_num), half (20 - 1 + 1) 40 (by norm_num) (by norm_num),
        show (20 - 1 + 1 : ℚ) = 20 by norm_num, g, half (19 * 10.5) 399 (by norm_num) (by norm_num),
        half (19 * 10.5 + 20) 439 (by norm_num) (by norm_num), half (_ - 5) 429 (by norm_num) (by norm_num),
        half (_ - 6) 417 (by norm_num) (by norm_num), half (_ + 15) 447 (by norm_num) (by norm_num),
        show (19 * 10.5 + 20 - 5 - 6 + 15 : ℚ) = 223.5 by norm_num, h, i, k,
        half (2 * 0) 0 (by norm_num) (by norm_num), half (32 + 2 * 0) 64 (by norm_num) (by norm_num),
        half (2 * 6) 24 (by norm_num) (by norm_num), half (32 + 2 * 0 + 2 * 6) 88 (by norm_num) (by norm_num),
        half (_ - 13.5) 61 (by norm_num) (by norm_num), half (_ - 0.5) 60 (by norm_num) (by norm_num),
        show (32 + 2 * 0 + 2 * 6 - 13.5 - 0.5 : ℚ) = 30 by norm_num, w,
        half (11 * 13.5) 297 (by norm_num) (by norm_num), half (10.5 + 11 * 13.5) 318 (by norm_num) (by norm_num),
        half (22 * 2) 88 (by norm_num) (by norm_num), half (10.5 + 11 * 13.5 + 22 * 2) 406 (by norm_num) (by norm_num),
        show (10.5 + 11 * 13.5 + 22 * 2 : ℚ) = 203 by norm_num, m,
        half (13.5 + 2) 31 (by norm_num) (by norm_num), half (7 * 0) 0 (by norm_num) (by norm_num),
        half (13.5 + 2 - 7 * 0) 31 (by norm_num) (by norm_num), half _ 259 (by norm_num) (by norm_num)]
      norm_num
    unfold easterF
    simp only [if_true]
    rw [t, o, p, half _ 13 (by norm_num) (by norm_num)]
    norm_num
  · intro h
    have := isEaster_unique _ _ _ _ _ _ h (easter_isEaster false 2024).1
    revert this
    decide
  · intro d h
    have : (2 * d : ℚ) = 13 := by rw [← h]; norm_num
    have : 2 * d = 13 := by exact_mod_cast this
    omega

example : easterF rne 2024 true = (3, 31) := by
  have := easter_float rounding_rne.floatLike 2024 (by norm_num) true
  push_cast at this
  rw [this]
  decide +kernel

end Verif

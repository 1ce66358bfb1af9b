import Verif.Model.FloatEaster
import Verif.Lemmas.CalToJd

/-!
# Lemmas: float remainders and quotients of whole numbers
-/

namespace Verif
open Spec

/-- Remainders towards zero and downwards. -/
theorem tmod_cases (x y : ℤ) (hy : 0 < y) :
    (x.tmod y < 0 ∧ x % y = x.tmod y + y ∧ x / y = x.tdiv y - 1) ∨ (0 ≤ x.tmod y ∧ x % y = x.tmod y ∧ x / y = x.tdiv y) := by
  have d := Int.mul_tdiv_add_tmod x y
  have lo : -y < x.tmod y ∧ x.tmod y < y := by
    constructor
    · rcases le_total 0 x with h | h
      · have := Int.tmod_nonneg y h; omega
      · have := Int.tmod_lt_of_pos (-x) hy
        rw [Int.neg_tmod] at this; omega
    · exact Int.tmod_lt_of_pos x hy
  rcases lt_or_ge (x.tmod y) 0 with h | h
  · left
    have := (Int.ediv_emod_unique hy (a := x) (q := x.tdiv y - 1) (r := x.tmod y + y)).mpr ⟨by linarith, by omega, by omega⟩
    exact ⟨h, this.2, this.1⟩
  · right
    have := (Int.ediv_emod_unique hy (a := x) (q := x.tdiv y) (r := x.tmod y)).mpr ⟨by linarith, by omega, by omega⟩
    exact ⟨h, this.2, this.1⟩

theorem sub_trunc (x : ℤ) (y : ℕ) (hy : 0 < y) : (x : ℚ) - y * trunc ((x : ℚ) / y) = ((x.tmod y : ℤ) : ℚ) := by
  rw [trunc_div x y hy, Int.tmod_def]
  push_cast; ring

/-- The remainder of whole numbers. -/
theorem floatMod_int {fl : ℚ → ℚ} (hf : FloatLike fl) (x : ℤ) (y : ℕ) (hy : 0 < y) (hy' : y ≤ 1000) :
    floatMod fl (x : ℚ) (y : ℚ) = ((x % y : ℤ) : ℚ) := by
  unfold floatMod
  simp only
  rw [sub_trunc x y hy]
  have m0 := Int.emod_nonneg x (show (y : ℤ) ≠ 0 by omega)
  have m1 := Int.emod_lt_of_pos x (show (0 : ℤ) < y by omega)
  rcases tmod_cases x y (by omega) with ⟨h1, h2, -⟩ | ⟨h1, h2, -⟩
  · rw [if_pos (by exact_mod_cast h1), show ((x.tmod y : ℤ) : ℚ) + y = ((x % y : ℤ) : ℚ) by rw [h2]; push_cast; ring]
    exact hf.int (by rw [abs_le]; omega)
  · rw [if_neg (by rw [not_lt]; exact_mod_cast h1), h2]

/-- The quotient of whole numbers. -/
theorem floatFloorDiv_int {fl : ℚ → ℚ} (hf : FloatLike fl) (x : ℤ) (hx : |x| ≤ 2 ^ 50) (y : ℕ) (hy : 0 < y) :
    floatFloorDiv fl (x : ℚ) (y : ℚ) = ((x / y : ℤ) : ℚ) := by
  have y0 : (y : ℚ) ≠ 0 := by positivity
  have d := Int.mul_tdiv_add_tmod x y
  have t : |x.tdiv y| ≤ 2 ^ 50 ∧ |x - x.tmod y| ≤ 2 ^ 50 := by
    rw [abs_le] at hx
    have e : x - x.tmod y = y * x.tdiv y := by linarith
    have yp : (1 : ℤ) ≤ y := by omega
    have s : (0 ≤ x ∧ 0 ≤ x.tdiv y ∧ 0 ≤ x.tmod y) ∨ (x ≤ 0 ∧ x.tdiv y ≤ 0 ∧ x.tmod y ≤ 0) := by
      rcases le_total 0 x with h | h
      · exact Or.inl ⟨h, Int.tdiv_nonneg h (by omega), Int.tmod_nonneg _ h⟩
      · refine Or.inr ⟨h, ?_, ?_⟩
        · have := Int.tdiv_nonneg (show 0 ≤ -x by omega) (show (0 : ℤ) ≤ y by omega)
          rw [Int.neg_tdiv] at this; omega
        · have := Int.tmod_nonneg y (show 0 ≤ -x by omega)
          rw [Int.neg_tmod] at this; omega
    rw [abs_le, abs_le]
    rcases s with ⟨s1, s2, s3⟩ | ⟨s1, s2, s3⟩
    · have : x.tdiv y ≤ y * x.tdiv y := by nlinarith
      omega
    · have : y * x.tdiv y ≤ x.tdiv y := by nlinarith
      omega
  unfold floatFloorDiv
  simp only
  rw [sub_trunc x y hy]
  rw [show (x : ℚ) - ((x.tmod y : ℤ) : ℚ) = ((x - x.tmod y : ℤ) : ℚ) by push_cast; ring,
    hf.int (t.2.trans (by norm_num)),
    show ((x - x.tmod y : ℤ) : ℚ) / y = ((x.tdiv y : ℤ) : ℚ) by
      rw [show x - x.tmod y = y * x.tdiv y by linarith]; push_cast; field_simp,
    hf.int (t.1.trans (by norm_num))]
  have key : (if ((x.tmod y : ℤ) : ℚ) < 0 then fl (((x.tdiv y : ℤ) : ℚ) - 1) else ((x.tdiv y : ℤ) : ℚ)) =
      ((x / y : ℤ) : ℚ) := by
    rcases tmod_cases x y (by omega) with ⟨h1, -, h2⟩ | ⟨h1, -, h2⟩
    · rw [if_pos (by exact_mod_cast h1), h2, show ((x.tdiv y : ℤ) : ℚ) - 1 = ((x.tdiv y - 1 : ℤ) : ℚ) by push_cast; ring]
      refine hf.int ?_
      have := abs_le.mp t.1
      rw [abs_le]; omega
    · rw [if_neg (by rw [not_lt]; exact_mod_cast h1), h2]
  rw [key]
  split_ifs with h1 h2
  · rw [h1]
  · rw [Int.floor_intCast, sub_self, show (0 : ℚ) = ((0 : ℤ) : ℚ) by simp, hf.int (by norm_num)] at h2
    norm_num at h2
  · rw [Int.floor_intCast]

section
variable {fl : ℚ → ℚ} (hf : FloatLike fl)
include hf

theorem iadd {a b : ℚ} {m n : ℤ} (ha : a = m) (hb : b = n) (h : |m + n| ≤ 2 ^ 53) : fl (a + b) = ((m + n : ℤ) : ℚ) := by
  rw [ha, hb, ← hf.int h]; push_cast; rfl
theorem isub {a b : ℚ} {m n : ℤ} (ha : a = m) (hb : b = n) (h : |m - n| ≤ 2 ^ 53) : fl (a - b) = ((m - n : ℤ) : ℚ) := by
  rw [ha, hb, ← hf.int h]; push_cast; rfl
theorem imul {a b : ℚ} {m n : ℤ} (ha : a = m) (hb : b = n) (h : |m * n| ≤ 2 ^ 53) : fl (a * b) = ((m * n : ℤ) : ℚ) := by
  rw [ha, hb, ← hf.int h]; push_cast; rfl
theorem imod {a b : ℚ} {m : ℤ} {y : ℕ} (ha : a = m) (hb : b = y) (h : 0 < y) (h' : y ≤ 1000) :
    floatMod fl a b = ((m % y : ℤ) : ℚ) := by
  rw [ha, hb]; exact floatMod_int hf m y h h'
theorem idiv {a b : ℚ} {m : ℤ} {y : ℕ} (ha : a = m) (hb : b = y) (h : 0 < y) (hm : |m| ≤ 2 ^ 50) :
    floatFloorDiv fl a b = ((m / y : ℤ) : ℚ) := by
  rw [ha, hb]; exact floatFloorDiv_int hf m hm y h

theorem easterJulianF_int (y : ℤ) : easterJulianF fl y = easterJulian y := by
  have n : ∀ k : ℕ, ((k : ℕ) : ℚ) = ((k : ℤ) : ℚ) := fun k => by simp
  have a := imod hf (a := (y : ℚ)) (b := 4) (y := 4) rfl (by norm_num) (by norm_num) (by norm_num)
  have b := imod hf (a := (y : ℚ)) (b := 7) (y := 7) rfl (by norm_num) (by norm_num) (by norm_num)
  have c := imod hf (a := (y : ℚ)) (b := 19) (y := 19) rfl (by norm_num) (by norm_num) (by norm_num)
  unfold easterJulianF easterJulian
  simp only
  rw [a, b, c]
  push_cast
  generalize ha : y % 4 = A
  generalize hb : y % 7 = B
  generalize hc : y % 19 = C
  have d1 := imul hf (a := 19) (b := (C : ℚ)) (m := 19) (by norm_num) rfl (by rw [abs_le]; omega)
  have d2 := iadd hf (b := 15) (n := 15) d1 (by norm_num) (by rw [abs_le]; omega)
  have d := imod hf (b := 30) (y := 30) d2 (by norm_num) (by norm_num) (by norm_num)
  rw [d]
  push_cast
  generalize hd : (19 * C + 15) % 30 = D
  have e1 := imul hf (a := 2) (b := (A : ℚ)) (m := 2) (by norm_num) rfl (by rw [abs_le]; omega)
  have e2 := imul hf (a := 4) (b := (B : ℚ)) (m := 4) (by norm_num) rfl (by rw [abs_le]; omega)
  have e3 := iadd hf e1 e2 (by rw [abs_le]; omega)
  have e4 := isub hf (b := (D : ℚ)) e3 rfl (by rw [abs_le]; omega)
  have e5 := iadd hf (b := 34) (n := 34) e4 (by norm_num) (by rw [abs_le]; omega)
  have e := imod hf (b := 7) (y := 7) e5 (by norm_num) (by norm_num) (by norm_num)
  rw [e]
  push_cast
  generalize he : (2 * A + 4 * B - D + 34) % 7 = E
  have f1 := iadd hf (a := (D : ℚ)) (b := (E : ℚ)) rfl rfl (by rw [abs_le]; omega)
  have f2 := iadd hf (b := 114) (n := 114) f1 (by norm_num) (by rw [abs_le]; omega)
  rw [f2]
  push_cast
  ring

theorem easterGregorianF_int (y : ℤ) (hy : |y| ≤ 2 ^ 45) : easterGregorianF fl y = easterGregorian y := by
  rw [abs_le] at hy
  have a := imod hf (a := (y : ℚ)) (b := 19) (y := 19) rfl (by norm_num) (by norm_num) (by norm_num)
  have b := idiv hf (a := (y : ℚ)) (b := 100) (y := 100) rfl (by norm_num) (by norm_num) (by rw [abs_le]; omega)
  have c := imod hf (a := (y : ℚ)) (b := 100) (y := 100) rfl (by norm_num) (by norm_num) (by norm_num)
  unfold easterGregorianF easterGregorian
  simp only
  rw [a, b, c]
  push_cast
  generalize ha : y % 19 = A
  generalize hb : y / 100 = B
  generalize hc : y % 100 = C
  have d := idiv hf (a := (B : ℚ)) (b := 4) (y := 4) rfl (by norm_num) (by norm_num) (by rw [abs_le]; omega)
  have e := imod hf (a := (B : ℚ)) (b := 4) (y := 4) rfl (by norm_num) (by norm_num) (by norm_num)
  have f1 := iadd hf (a := (B : ℚ)) (b := 8) (n := 8) rfl (by norm_num) (by rw [abs_le]; omega)
  have f := idiv hf (b := 25) (y := 25) f1 (by norm_num) (by norm_num) (by rw [abs_le]; omega)
  rw [d, e, f]
  push_cast
  generalize hd : B / 4 = D
  generalize he : B % 4 = E
  generalize hF : (B + 8) / 25 = F
  have g1 := isub hf (a := (B : ℚ)) (b := (F : ℚ)) rfl rfl (by rw [abs_le]; omega)
  have g2 := iadd hf (b := 1) (n := 1) g1 (by norm_num) (by rw [abs_le]; omega)
  have g := idiv hf (b := 3) (y := 3) g2 (by norm_num) (by norm_num) (by rw [abs_le]; omega)
  rw [g]
  push_cast
  generalize hG : (B - F + 1) / 3 = G
  have h1 := imul hf (a := 19) (b := (A : ℚ)) (m := 19) (by norm_num) rfl (by rw [abs_le]; omega)
  have h2 := iadd hf (b := (B : ℚ)) h1 rfl (by rw [abs_le]; omega)
  have h3 := isub hf (b := (D : ℚ)) h2 rfl (by rw [abs_le]; omega)
  have h4 := isub hf (b := (G : ℚ)) h3 rfl (by rw [abs_le]; omega)
  have h5 := iadd hf (b := 15) (n := 15) h4 (by norm_num) (by rw [abs_le]; omega)
  have h := imod hf (b := 30) (y := 30) h5 (by norm_num) (by norm_num) (by norm_num)
  have i := idiv hf (a := (C : ℚ)) (b := 4) (y := 4) rfl (by norm_num) (by norm_num) (by rw [abs_le]; omega)
  have k := imod hf (a := (C : ℚ)) (b := 4) (y := 4) rfl (by norm_num) (by norm_num) (by norm_num)
  rw [h, i, k]
  push_cast
  generalize hH : (19 * A + B - D - G + 15) % 30 = H
  generalize hI : C / 4 = I
  generalize hK : C % 4 = K
  have w1 := imul hf (a := 2) (b := (E : ℚ)) (m := 2) (by norm_num) rfl (by rw [abs_le]; omega)
  have w2 := imul hf (a := 2) (b := (I : ℚ)) (m := 2) (by norm_num) rfl (by rw [abs_le]; omega)
  have w3 := iadd hf (a := 32) (m := 32) (by norm_num) w1 (by rw [abs_le]; omega)
  have w4 := iadd hf w3 w2 (by rw [abs_le]; omega)
  have w5 := isub hf (b := (H : ℚ)) w4 rfl (by rw [abs_le]; omega)
  have w6 := isub hf (b := (K : ℚ)) w5 rfl (by rw [abs_le]; omega)
  have w := imod hf (b := 7) (y := 7) w6 (by norm_num) (by norm_num) (by norm_num)
  rw [w]
  push_cast
  generalize hW : (32 + 2 * E + 2 * I - H - K) % 7 = W
  have m1 := imul hf (a := 11) (b := (H : ℚ)) (m := 11) (by norm_num) rfl (by rw [abs_le]; omega)
  have m2 := imul hf (a := 22) (b := (W : ℚ)) (m := 22) (by norm_num) rfl (by rw [abs_le]; omega)
  have m3 := iadd hf (a := (A : ℚ)) rfl m1 (by rw [abs_le]; omega)
  have m4 := iadd hf m3 m2 (by rw [abs_le]; omega)
  have m := idiv hf (b := 451) (y := 451) m4 (by norm_num) (by norm_num) (by rw [abs_le]; omega)
  rw [m]
  push_cast
  generalize hM : (A + 11 * H + 22 * W) / 451 = M
  have r1 := iadd hf (a := (H : ℚ)) (b := (W : ℚ)) rfl rfl (by rw [abs_le]; omega)
  have r2 := imul hf (a := 7) (b := (M : ℚ)) (m := 7) (by norm_num) rfl (by rw [abs_le]; omega)
  have r3 := isub hf r1 r2 (by rw [abs_le]; omega)
  have r4 := iadd hf (b := 114) (n := 114) r3 (by norm_num) (by rw [abs_le]; omega)
  rw [r4]
  push_cast
  ring

end

theorem floatMod_pos {fl : ℚ → ℚ} {x y : ℚ} (q : ℤ) (hx : 0 ≤ x) (hy : 0 < y) (h1 : q ≤ x / y) (h2 : x / y < q + 1) :
    floatMod fl x y = x - y * q := by
  have t : trunc (x / y) = q := trunc_eq (by positivity) h1 h2
  unfold floatMod
  simp only
  rw [t, if_neg]
  rw [le_div_iff₀ hy] at h1
  linarith

theorem floatFloorDiv_pos {fl : ℚ → ℚ} (hf : FloatLike fl) {x : ℚ} {y : ℕ} (q : ℤ) (hx : 0 ≤ x) (hy : 0 < y)
    (h1 : q ≤ x / y) (h2 : x / y < q + 1) (hq : |q| ≤ 1000) (hy' : y ≤ 1000) : floatFloorDiv fl x y = q := by
  have y0 : (0 : ℚ) < y := by exact_mod_cast hy
  have t : trunc (x / y) = q := trunc_eq (by positivity) h1 h2
  have i := hf.int (n := y * q) (by
    rw [abs_mul, Nat.abs_cast]
    have : (y : ℤ) * |q| ≤ 1000 * 1000 := mul_le_mul (by exact_mod_cast hy') hq (abs_nonneg _) (by norm_num)
    omega)
  push_cast at i
  have j := hf.int (n := q) (hq.trans (by norm_num))
  have z := hf.int (n := 0) (by norm_num)
  unfold floatFloorDiv
  simp only
  have n : ¬ x - y * q < 0 := by rw [le_div_iff₀ y0] at h1; linarith
  rw [t, if_neg n, sub_sub_cancel, i, mul_div_cancel_left₀ _ y0.ne', j,
    Int.floor_intCast, sub_self]
  push_cast at z
  rw [z, if_neg (by norm_num : ¬ (0 : ℚ) > 1 / 2)]
  split_ifs with h
  · exact h.symm
  · rfl

end Verif

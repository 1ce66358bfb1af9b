import Verif.Model.FloatSun
import Verif.Lemmas.Nutation
import Verif.Props.FloatVsop

/-!
# Rounding errors of angles and of the nutation
-/

namespace Verif
open Real

theorem uuR : (uu : ℝ) = 1 / 2 ^ 53 := by unfold uu; push_cast; rfl
theorem wwR : (ww : ℝ) = 1 / 10 ^ 30 := by unfold ww; push_cast; rfl

/-- Rounding, with the new error given. -/
theorem Near.rnd {fl : ℚ → ℚ} (hf : FloatLike fl) {x : ℚ} {y e M e' : ℝ} (h : Near x y e) (hM : |y| ≤ M)
    (he : e + uu * (M + e + ww) ≤ e') : Near (fl x) y e' := (h.fl hf hM).mono he

theorem piF_near : Near piF π 1.3e-16 := by
  have h1 := Real.pi_gt_d20
  have h2 := Real.pi_lt_d20
  unfold Near piF
  rw [abs_le]
  push_cast
  constructor <;> norm_num at h1 h2 ⊢ <;> linarith

theorem pi_abs : |π| ≤ 3.1416 := by
  rw [abs_of_pos Real.pi_pos]; have := Real.pi_lt_d4; norm_num at this ⊢; linarith

/-- Conversion to radians. -/
theorem dToRF_near {fl : ℚ → ℚ} (hf : FloatLike fl) {X : ℚ} {r e M : ℝ} (h : Near X r e) (hM : |r| ≤ M) :
    Near (dToRF fl X) (dToR r) (0.0175 * e + 0.042 * uu * M + 2 * uu * ww) := by
  have e0 := h.nonneg
  have M0 : 0 ≤ M := (abs_nonneg _).trans hM
  have u0 := uu_posR
  have w0 := ww_posR
  have a1 : |r * π| ≤ 3.1416 * M := by
    rw [abs_mul, mul_comm]; exact mul_le_mul pi_abs hM (abs_nonneg _) (by norm_num)
  have n1 : Near (fl (X * piF)) (r * π) (3.1417 * e + 4.32 * uu * M + uu * ww) := by
    refine (h.mul piF_near hM pi_abs).rnd hf a1 ?_
    rw [uuR]; generalize (ww : ℝ) = w at *
    norm_num
    nlinarith
  have n2 := n1.div_const (k := 180) (by norm_num)
  have a2 : |r * π / 180| ≤ 3.1416 * M / 180 := by
    rw [abs_div, abs_of_pos (by norm_num : (0 : ℝ) < 180)]
    exact div_le_div_of_nonneg_right a1 (by norm_num)
  have n3 := n2.rnd hf (by push_cast; exact a2) (e' := 0.0175 * e + 0.042 * uu * M + 2 * uu * ww) (by
    push_cast
    rw [uuR]; generalize (ww : ℝ) = w at *
    norm_num
    nlinarith)
  unfold dToRF dToR
  push_cast at n3
  exact n3

/-- The rounded literal. -/
theorem lit_near {fl : ℚ → ℚ} (hf : FloatLike fl) (q : ℚ) : Near (fl q) q (uu * (|(q : ℝ)| + ww)) := by
  have := (near_self q).fl hf le_rfl
  simpa using this

theorem radF_near {fl : ℚ → ℚ} (hf : FloatLike fl) (q : ℚ) :
    Near (dToRF fl (fl q)) (dToR q) (uu * (0.06 * |(q : ℝ)| + 3 * ww)) := by
  refine (dToRF_near hf (lit_near hf q) le_rfl).mono ?_
  have u0 := uu_posR
  have w0 := ww_posR
  have q0 := abs_nonneg (q : ℝ)
  rw [uuR]; generalize (ww : ℝ) = w at *
  generalize |(q : ℝ)| = m at *
  norm_num
  nlinarith

/-! ### Polynomials -/

/-- Bound of a polynomial with coefficients in degrees. -/
def hM (T : ℚ) : List ℚ → ℚ
  | [] => 0
  | [q] => 0.01746 * |q|
  | q :: qs => 0.01746 * |q| + hM T qs * T

/-- Bound of the rounding error. -/
def hE (T et : ℚ) : List ℚ → ℚ
  | [] => 0
  | [q] => uu * (0.06 * |q| + 3 * ww)
  | q :: qs =>
    let e1 := hE T et qs * (T + et) + hM T qs * et
    let e3 := uu * (0.06 * |q| + 3 * ww) + (e1 + uu * (hM T qs * T + e1 + ww))
    e3 + uu * (0.01746 * |q| + hM T qs * T + e3 + ww)

theorem dToR_abs_le (q : ℝ) : |dToR q| ≤ 0.01746 * |q| := by
  unfold dToR
  rw [abs_div, abs_mul, abs_of_pos (by norm_num : (0 : ℝ) < 180), div_le_iff₀ (by norm_num)]
  have := pi_abs
  have q0 := abs_nonneg q
  norm_num at this ⊢
  nlinarith

theorem horner_cons2 {α : Type} [Add α] [Mul α] [Zero α] (fl : α → α) (x a b : α) (l : List α) :
    horner fl x (a :: b :: l) = fl (a + fl (horner fl x (b :: l) * x)) := rfl

theorem horner_near {fl : ℚ → ℚ} (hf : FloatLike fl) {TF : ℚ} {t : ℝ} {T et : ℚ} (ht : Near TF t et)
    (hT : |t| ≤ T) (qs : List ℚ) :
    |polyR (qs.map fun q : ℚ => dToR (q : ℝ)) t| ≤ hM T qs ∧
      Near (horner fl TF (radF fl qs)) (polyR (qs.map fun q : ℚ => dToR (q : ℝ)) t) (hE T et qs) := by
  have T0 : (0 : ℝ) ≤ T := (abs_nonneg _).trans hT
  induction qs with
  | nil => simp [polyR, horner, radF, hM, hE, Near]
  | cons q qs ih =>
    cases qs with
    | nil =>
      simp only [polyR, horner, radF, hM, hE, List.map_cons, List.map_nil]
      constructor
      · push_cast
        exact dToR_abs_le _
      · have := radF_near hf q
        push_cast
        exact this
    | cons p ps =>
      obtain ⟨i1, i2⟩ := ih
      have c := radF_near hf q
      have d := dToR_abs_le q
      simp only [polyR, radF, List.map_cons] at i1 i2 ⊢
      rw [horner_cons2, horner_cons2]
      rw [hM, hE]
      case x_1 => simp
      case x_1 => simp
      generalize horner (fun x : ℝ => x) t (dToR p :: ps.map fun q : ℚ => dToR q) = y at *
      generalize horner fl TF (dToRF fl (fl p) :: ps.map fun q => dToRF fl (fl q)) = Y at *
      have a1 : |y * t| ≤ hM T (p :: ps) * T := by
        rw [abs_mul]; exact mul_le_mul i1 hT (abs_nonneg _) ((abs_nonneg _).trans i1)
      have a2 : |dToR q + y * t| ≤ 0.01746 * |(q : ℝ)| + hM T (p :: ps) * T :=
        (abs_add_le _ _).trans (add_le_add d a1)
      constructor
      · push_cast; exact a2
      · have m := (c.add ((i2.mul ht i1 hT).fl hf a1)).fl hf a2
        push_cast
        exact m

/-! ### Angles -/

/-- The float `X` is within `e` of the angle `x`, up to whole turns. -/
def NearA (X : ℚ) (x e : ℝ) : Prop := ∃ k : ℤ, Near X (x + k * (2 * π)) e

theorem NearA.mono {X : ℚ} {x e e' : ℝ} (h : NearA X x e) (he : e ≤ e') : NearA X x e' := by
  obtain ⟨k, h⟩ := h; exact ⟨k, h.mono he⟩

theorem modpi2F_range {fl : ℚ → ℚ} (hf : FloatLike fl) (X : ℚ) :
    0 ≤ modpi2F fl pi2F X ∧ modpi2F fl pi2F X ≤ pi2F := by
  obtain ⟨h1, h2, -, -⟩ := floatMod_spec hf X pi2F (by norm_num [pi2F]) pi2F_f64
  exact ⟨h1, h2⟩

/-- Reducing a float modulo the float `2 π`. -/
theorem modpi2F_nearA {fl : ℚ → ℚ} (hf : FloatLike fl) {X : ℚ} {x e M : ℝ} (h : Near X x e) (he : e ≤ 1)
    (hx : |x| ≤ M) : NearA (modpi2F fl pi2F X) x (e + (M + 20) * 1e-16) := by
  have p0 : (0 : ℚ) < pi2F := by norm_num [pi2F]
  obtain ⟨-, -, h3, -⟩ := floatMod_spec hf X pi2F p0 pi2F_f64
  refine ⟨-⌊X / pi2F⌋, ?_⟩
  have h3' : |(modpi2F fl pi2F X : ℝ) - (X - pi2F * ⌊X / pi2F⌋)| ≤ 1e-15 := by
    have k : (pi2F / 2 ^ 53 + 1 / 2 ^ 1074 : ℚ) ≤ 1e-15 := by
      have : (1 : ℚ) / 2 ^ 1074 ≤ 1 / 2 ^ 60 :=
        one_div_le_one_div_of_le (by positivity) (pow_le_pow_right₀ (by norm_num) (by norm_num))
      unfold pi2F
      norm_num at this ⊢
      linarith
    have := (Rat.cast_le (K := ℝ)).mpr (h3.trans k)
    push_cast at this
    exact this
  have hX := h.abs hx
  have kb : |((⌊X / pi2F⌋ : ℤ) : ℝ)| ≤ (M + 1) / 6 + 1 := by
    have a : ((⌊X / pi2F⌋ : ℤ) : ℝ) ≤ X / pi2F := by exact_mod_cast Int.floor_le (X / pi2F)
    have b : (X : ℝ) / pi2F < ((⌊X / pi2F⌋ : ℤ) : ℝ) + 1 := by
      exact_mod_cast Int.lt_floor_add_one (X / pi2F)
    have q : |(X : ℝ) / pi2F| ≤ (M + 1) / 6 := by
      have p6 : (6 : ℝ) ≤ pi2F := by unfold pi2F; norm_num
      rw [abs_div, abs_of_pos (show (0 : ℝ) < pi2F by linarith)]
      exact div_le_div₀ (by linarith [abs_nonneg x]) (by linarith) (by norm_num) p6
    obtain ⟨q1, q2⟩ := abs_le.mp q
    exact abs_le.mpr ⟨by linarith, by linarith⟩
  have M0 : 0 ≤ M := (abs_nonneg _).trans hx
  generalize (⌊X / pi2F⌋ : ℤ) = k at *
  have d := pi2F_near
  unfold Near at h ⊢
  have kd : |(k : ℝ) * (pi2F - 2 * π)| ≤ ((M + 1) / 6 + 1) * 2.5e-16 := by
    rw [abs_mul]; exact mul_le_mul kb d (abs_nonneg _) (by positivity)
  have e1 : (modpi2F fl pi2F X : ℝ) - (x + ((-k : ℤ) : ℝ) * (2 * π)) =
      ((modpi2F fl pi2F X : ℝ) - (X - pi2F * k)) + (X - x) + -(k * (pi2F - 2 * π)) := by
    push_cast; ring
  rw [e1]
  refine (abs_add_le _ _).trans ?_
  have := abs_add_le ((modpi2F fl pi2F X : ℝ) - (X - pi2F * k)) (X - x)
  rw [abs_neg]
  norm_num at kd h3' ⊢
  linarith

theorem jcentF_near {fl : ℚ → ℚ} (hf : FloatLike fl) {jd : ℚ} (h : |jcent jd| ≤ 60) :
    Near (jcentF fl jd) (jcent jd) (126 * uu : ℚ) := by
  have a0 : |(jd : ℝ) - 2451545| ≤ 60 * 36525 := by
    unfold jcent at h
    rw [abs_div, abs_of_pos (by norm_num : (0 : ℝ) < 36525), div_le_iff₀ (by norm_num)] at h
    exact h
  have n0 : Near (jd - 2451545) ((jd : ℝ) - 2451545) 0 := by simp [Near]
  have n1 := (n0.fl hf a0).div_const (k := 36525) (by norm_num)
  have n2 := n1.rnd hf (M := 60) (e' := 126 * uu) (by push_cast; exact h) (by
    rw [uuR, wwR]; push_cast; norm_num)
  unfold jcentF jcent
  push_cast at n2 ⊢
  exact n2

/-- Checks the constants of a polynomial. -/
def polyOk (qs : List ℚ) : Bool := decide (hM 60 qs ≤ 510000) && decide (hE 60 (126 * uu) qs ≤ 5e-10)

theorem angle_near {fl : ℚ → ℚ} (hf : FloatLike fl) {jd : ℚ} (h : |jcent jd| ≤ 60) {qs : List ℚ}
    (ok : polyOk qs = true) :
    NearA (modpi2F fl pi2F (horner fl (jcentF fl jd) (radF fl qs)))
      (polyR (qs.map fun q : ℚ => dToR (q : ℝ)) (jcent jd)) 5.6e-10 := by
  unfold polyOk at ok
  simp only [Bool.and_eq_true, decide_eq_true_eq] at ok
  obtain ⟨o1, o2⟩ := ok
  have o1 : ((hM 60 qs : ℚ) : ℝ) ≤ 510000 := by exact_mod_cast o1
  have o2 : ((hE 60 (126 * uu) qs : ℚ) : ℝ) ≤ 5e-10 := by
    have := (Rat.cast_le (K := ℝ)).mpr o2; push_cast at this; exact this
  obtain ⟨a, n⟩ := horner_near hf (T := 60) (jcentF_near hf h) (by push_cast; exact h) qs
  refine (modpi2F_nearA hf (n.mono o2) (by norm_num) (a.trans o1)).mono ?_
  norm_num

theorem degD_ok : polyOk degD = true := by decide +kernel
theorem degM_ok : polyOk degM = true := by decide +kernel
theorem degM1_ok : polyOk degM1 = true := by decide +kernel
theorem degF_ok : polyOk degF = true := by decide +kernel
theorem dego_ok : polyOk dego = true := by decide +kernel

theorem degD_eq : (degD.map fun q : ℚ => dToR (q : ℝ)) = kD := by unfold degD kD; simp only [List.map]; push_cast; rfl
theorem degM_eq : (degM.map fun q : ℚ => dToR (q : ℝ)) = kM := by unfold degM kM; simp only [List.map]; push_cast; rfl
theorem degM1_eq : (degM1.map fun q : ℚ => dToR (q : ℝ)) = kM1 := by unfold degM1 kM1; simp only [List.map]; push_cast; rfl
theorem degF_eq : (degF.map fun q : ℚ => dToR (q : ℝ)) = kF := by unfold degF kF; simp only [List.map]; push_cast; rfl
theorem dego_eq : (dego.map fun q : ℚ => dToR (q : ℝ)) = ko := by unfold dego ko; simp only [List.map]; push_cast; rfl

end Verif

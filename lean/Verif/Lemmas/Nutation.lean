import Verif.Model.Nutation
import Verif.Lemmas.Poisson

/-!
# Lemmas about the nutation series: unreduced arguments, bounds, Lipschitz constants
-/

namespace Verif
open Real

theorem foldl_add_eq {α : Type} (f : α → ℝ) (l : List α) (a : ℝ) :
    l.foldl (fun s r => s + f r) a = a + (l.map f).sum := by
  induction l generalizing a with
  | nil => simp
  | cons r l ih => rw [List.foldl_cons, ih, List.map_cons, List.sum_cons]; ring

theorem congr_add {t x y x' y' : ℝ} (h : Congr t x x') (h2 : Congr t y y') :
    Congr t (x + y) (x' + y') := by
  obtain ⟨k, e⟩ := h; obtain ⟨j, e2⟩ := h2
  exact ⟨k + j, by rw [e, e2]; push_cast; ring⟩

theorem congr_mul_int {t x y : ℝ} (h : Congr t x y) (n : ℤ) : Congr t (x * n) (y * n) := by
  obtain ⟨k, e⟩ := h
  exact ⟨k * n, by rw [e]; push_cast; ring⟩

/-- A row of the table of nutation. -/
abbrev NutRow := ℤ × ℤ × ℤ × ℤ × ℤ × ℤ × ℤ × ℤ × ℤ

/-- The argument of a row with unreduced angles. -/
noncomputable def nutArg (T : ℝ) (r : NutRow) : ℝ :=
  polyR kD T * r.1 + polyR kM T * r.2.1 + polyR kM1 T * r.2.2.1 + polyR kF T * r.2.2.2.1 +
    polyR ko T * r.2.2.2.2.1

theorem nutArg_congr (T : ℝ) (r : NutRow) :
    Congr (2 * π) (modpi2 (polyR kD T) * r.1 + modpi2 (polyR kM T) * r.2.1 +
      modpi2 (polyR kM1 T) * r.2.2.1 + modpi2 (polyR kF T) * r.2.2.2.1 +
      modpi2 (polyR ko T) * r.2.2.2.2.1) (nutArg T r) :=
  congr_add (congr_add (congr_add (congr_add (congr_mul_int (modpi2_spec _).2.2 _)
    (congr_mul_int (modpi2_spec _).2.2 _)) (congr_mul_int (modpi2_spec _).2.2 _))
    (congr_mul_int (modpi2_spec _).2.2 _)) (congr_mul_int (modpi2_spec _).2.2 _)

/-- Nutation in longitude in seconds of arc, with unreduced angles. -/
noncomputable def nutPsi (T : ℝ) : ℝ :=
  (Data.nutationTable.map fun r : NutRow =>
    ((r.2.2.2.2.2.1 : ℝ) / 10000 + r.2.2.2.2.2.2.1 / 100000 * T) * sin (nutArg T r)).sum

/-- Nutation in obliquity in seconds of arc, with unreduced angles. -/
noncomputable def nutEps (T : ℝ) : ℝ :=
  (Data.nutationTable.map fun r : NutRow =>
    ((r.2.2.2.2.2.2.2.1 : ℝ) / 10000 + r.2.2.2.2.2.2.2.2 / 100000 * T) * cos (nutArg T r)).sum

theorem nutationInLongitude_eq (jd : ℝ) :
    nutationInLongitude jd = dToR (nutPsi (jcent jd) / 3600) := by
  unfold nutationInLongitude nutConstants
  simp only
  rw [foldl_add_eq (fun r : NutRow => ((r.2.2.2.2.2.1 : ℝ) / 10000 +
    r.2.2.2.2.2.2.1 / 100000 * jcent jd) * sin (modpi2 (polyR kD (jcent jd)) * r.1 +
      modpi2 (polyR kM (jcent jd)) * r.2.1 + modpi2 (polyR kM1 (jcent jd)) * r.2.2.1 +
      modpi2 (polyR kF (jcent jd)) * r.2.2.2.1 + modpi2 (polyR ko (jcent jd)) * r.2.2.2.2.1)),
    zero_add]
  unfold nutPsi
  simp only [fun r : NutRow => sin_congr (nutArg_congr (jcent jd) r)]

theorem nutationInObliquity_eq (jd : ℝ) :
    nutationInObliquity jd = dToR (nutEps (jcent jd) / 3600) := by
  unfold nutationInObliquity nutConstants
  simp only
  rw [foldl_add_eq (fun r : NutRow => ((r.2.2.2.2.2.2.2.1 : ℝ) / 10000 +
    r.2.2.2.2.2.2.2.2 / 100000 * jcent jd) * cos (modpi2 (polyR kD (jcent jd)) * r.1 +
      modpi2 (polyR kM (jcent jd)) * r.2.1 + modpi2 (polyR kM1 (jcent jd)) * r.2.2.1 +
      modpi2 (polyR kF (jcent jd)) * r.2.2.2.1 + modpi2 (polyR ko (jcent jd)) * r.2.2.2.2.1)),
    zero_add]
  unfold nutEps
  simp only [fun r : NutRow => cos_congr (nutArg_congr (jcent jd) r)]

/-! ### Bounds -/

/-- Bound of a sum of terms with coefficient `k / 10000 + k' / 100000 * T`. -/
theorem sum_coeff_abs {α : Type} (l : List α) (k k' : α → ℤ) (g : α → ℝ) (T : ℝ)
    (hg : ∀ r, |g r| ≤ 1) :
    |(l.map fun r => ((k r : ℝ) / 10000 + k' r / 100000 * T) * g r).sum| ≤
      ((l.map fun r => (k r).natAbs).sum : ℕ) / 10000 +
      ((l.map fun r => (k' r).natAbs).sum : ℕ) / 100000 * |T| := by
  induction l with
  | nil => simp
  | cons r l ih =>
    simp only [List.map_cons, List.sum_cons]
    refine (abs_add_le _ _).trans ?_
    have e : |((k r : ℝ) / 10000 + k' r / 100000 * T) * g r| ≤
        ((k r).natAbs : ℝ) / 10000 + (k' r).natAbs / 100000 * |T| := by
      rw [abs_mul]
      refine (mul_le_of_le_one_right (abs_nonneg _) (hg r)).trans ?_
      refine (abs_add_le _ _).trans (le_of_eq ?_)
      rw [abs_mul, abs_div, abs_div, Nat.cast_natAbs, Nat.cast_natAbs, Int.cast_abs, Int.cast_abs,
        abs_of_pos (by norm_num : (0 : ℝ) < 10000), abs_of_pos (by norm_num : (0 : ℝ) < 100000)]
    refine (add_le_add e ih).trans (le_of_eq ?_)
    push_cast; ring

theorem nutPsi_abs (T : ℝ) : |nutPsi T| ≤ 19.4316 + 0.01823 * |T| := by
  have h := sum_coeff_abs Data.nutationTable (fun r : NutRow => r.2.2.2.2.2.1)
    (fun r => r.2.2.2.2.2.2.1) (fun r => sin (nutArg T r)) T (fun r => Real.abs_sin_le_one _)
  have n1 : (Data.nutationTable.map fun r : NutRow => r.2.2.2.2.2.1.natAbs).sum = 194316 := by
    decide +kernel
  have n2 : (Data.nutationTable.map fun r : NutRow => r.2.2.2.2.2.2.1.natAbs).sum = 1823 := by
    decide +kernel
  rw [n1, n2] at h
  refine h.trans (le_of_eq ?_)
  norm_num

theorem nutEps_abs (T : ℝ) : |nutEps T| ≤ 10.0733 + 0.00141 * |T| := by
  have h := sum_coeff_abs Data.nutationTable (fun r : NutRow => r.2.2.2.2.2.2.2.1)
    (fun r => r.2.2.2.2.2.2.2.2) (fun r => cos (nutArg T r)) T (fun r => Real.abs_cos_le_one _)
  have n1 : (Data.nutationTable.map fun r : NutRow => r.2.2.2.2.2.2.2.1.natAbs).sum = 100733 := by
    decide +kernel
  have n2 : (Data.nutationTable.map fun r : NutRow => r.2.2.2.2.2.2.2.2.natAbs).sum = 141 := by
    decide +kernel
  rw [n1, n2] at h
  refine h.trans (le_of_eq ?_)
  norm_num

/-! ### Lipschitz constant, for `|T| ≤ 60` (6000 years) -/

/-- Difference of two values of a polynomial of degree four. -/
theorem poly4_lip {a b c d e T U : ℝ} (hT : |T| ≤ 60) (hU : |U| ≤ 60) :
    |polyR [a, b, c, d, e] T - polyR [a, b, c, d, e] U| ≤
      (|b| + 120 * |c| + 10800 * |d| + 864000 * |e|) * |T - U| := by
  have x : polyR [a, b, c, d, e] T - polyR [a, b, c, d, e] U =
      (b + c * (T + U) + d * (T ^ 2 + T * U + U ^ 2) + e * (T ^ 3 + T ^ 2 * U + T * U ^ 2 + U ^ 3)) *
        (T - U) := by
    simp only [polyR, horner]; ring
  rw [x, abs_mul]
  refine mul_le_mul_of_nonneg_right ?_ (abs_nonneg _)
  obtain ⟨t1, t2⟩ := abs_le.mp hT
  obtain ⟨u1, u2⟩ := abs_le.mp hU
  have s1 : |T + U| ≤ 120 := by rw [abs_le]; constructor <;> linarith
  have sq : ∀ {x y : ℝ}, |x| ≤ 60 → |y| ≤ 60 → |x * y| ≤ 3600 := by
    intro x y hx hy
    rw [abs_mul]
    calc |x| * |y| ≤ 60 * 60 := mul_le_mul hx hy (abs_nonneg _) (by norm_num)
      _ = 3600 := by norm_num
  have cu : ∀ {x y z : ℝ}, |x| ≤ 60 → |y| ≤ 60 → |z| ≤ 60 → |x * y * z| ≤ 216000 := by
    intro x y z hx hy hz
    rw [abs_mul]
    calc |x * y| * |z| ≤ 3600 * 60 := mul_le_mul (sq hx hy) hz (abs_nonneg _) (by norm_num)
      _ = 216000 := by norm_num
  have s2 : |T ^ 2 + T * U + U ^ 2| ≤ 10800 := by
    have p1 := abs_le.mp (sq hT hT)
    have p2 := abs_le.mp (sq hT hU)
    have p3 := abs_le.mp (sq hU hU)
    rw [abs_le]; constructor <;> nlinarith [p1.1, p1.2, p2.1, p2.2, p3.1, p3.2]
  have s3 : |T ^ 3 + T ^ 2 * U + T * U ^ 2 + U ^ 3| ≤ 864000 := by
    have p1 := abs_le.mp (cu hT hT hT)
    have p2 := abs_le.mp (cu hT hT hU)
    have p3 := abs_le.mp (cu hT hU hU)
    have p4 := abs_le.mp (cu hU hU hU)
    have e1 : T ^ 3 + T ^ 2 * U + T * U ^ 2 + U ^ 3 = T * T * T + T * T * U + T * U * U + U * U * U := by
      ring
    rw [e1, abs_le]; constructor <;> linarith [p1.1, p1.2, p2.1, p2.2, p3.1, p3.2, p4.1, p4.2]
  have a1 : |c * (T + U)| ≤ 120 * |c| := by rw [abs_mul, mul_comm]; gcongr
  have a2 : |d * (T ^ 2 + T * U + U ^ 2)| ≤ 10800 * |d| := by rw [abs_mul, mul_comm]; gcongr
  have a3 : |e * (T ^ 3 + T ^ 2 * U + T * U ^ 2 + U ^ 3)| ≤ 864000 * |e| := by
    rw [abs_mul, mul_comm]; gcongr
  calc _ ≤ |b + c * (T + U) + d * (T ^ 2 + T * U + U ^ 2)| + _ := abs_add_le _ _
    _ ≤ |b + c * (T + U)| + _ + _ := by gcongr; exact abs_add_le _ _
    _ ≤ |b| + |c * (T + U)| + _ + _ := by gcongr; exact abs_add_le _ _
    _ ≤ _ := by linarith

theorem dToR_abs (x : ℝ) : |dToR x| = dToR |x| := by
  unfold dToR
  rw [abs_div, abs_mul, abs_of_pos Real.pi_pos, abs_of_pos (by norm_num : (0 : ℝ) < 180)]

/-- Rates of the five arguments: less than these numbers of degrees per century. -/
theorem args_lip {T U : ℝ} (hT : |T| ≤ 60) (hU : |U| ≤ 60) :
    |polyR kD T - polyR kD U| ≤ dToR 445268 * |T - U| ∧
    |polyR kM T - polyR kM U| ≤ dToR 36000 * |T - U| ∧
    |polyR kM1 T - polyR kM1 U| ≤ dToR 477201 * |T - U| ∧
    |polyR kF T - polyR kF U| ≤ dToR 483203 * |T - U| ∧
    |polyR ko T - polyR ko U| ≤ dToR 1935 * |T - U| := by
  have key : ∀ {b c d e n : ℝ}, |b| + 120 * |c| + 10800 * |d| + 864000 * |e| ≤ n →
      |dToR b| + 120 * |dToR c| + 10800 * |dToR d| + 864000 * |dToR e| ≤ dToR n := by
    intro b c d e n h
    simp only [dToR_abs]
    unfold dToR
    have := Real.pi_pos
    rw [le_div_iff₀ (by norm_num)]
    nlinarith
  have hM : kM = [dToR 357.5291092, dToR 35999.0502909, dToR (-0.0001536), dToR (1 / 24490000)] := rfl
  have hM5 : ∀ T, polyR kM T = polyR [dToR 357.5291092, dToR 35999.0502909, dToR (-0.0001536),
      dToR (1 / 24490000), dToR 0] T := by
    intro T; rw [hM]; simp only [polyR, horner, dToR]; ring
  refine ⟨?_, ?_, ?_, ?_, ?_⟩
  · exact (poly4_lip hT hU).trans (mul_le_mul_of_nonneg_right (key (by norm_num [abs_of_pos, abs_of_neg]))
      (abs_nonneg _))
  · rw [hM5, hM5]
    exact (poly4_lip hT hU).trans (mul_le_mul_of_nonneg_right (key (by norm_num [abs_of_pos, abs_of_neg]))
      (abs_nonneg _))
  · exact (poly4_lip hT hU).trans (mul_le_mul_of_nonneg_right (key (by norm_num [abs_of_pos, abs_of_neg]))
      (abs_nonneg _))
  · exact (poly4_lip hT hU).trans (mul_le_mul_of_nonneg_right (key (by norm_num [abs_of_pos, abs_of_neg]))
      (abs_nonneg _))
  · exact (poly4_lip hT hU).trans (mul_le_mul_of_nonneg_right (key (by norm_num [abs_of_pos, abs_of_neg]))
      (abs_nonneg _))

/-- Degrees per century of the argument of a row. -/
def nutRate (r : NutRow) : ℕ :=
  445268 * r.1.natAbs + 36000 * r.2.1.natAbs + 477201 * r.2.2.1.natAbs +
    483203 * r.2.2.2.1.natAbs + 1935 * r.2.2.2.2.1.natAbs

theorem nutArg_lip {T U : ℝ} (hT : |T| ≤ 60) (hU : |U| ≤ 60) (r : NutRow) :
    |nutArg T r - nutArg U r| ≤ dToR (nutRate r) * |T - U| := by
  obtain ⟨h1, h2, h3, h4, h5⟩ := args_lip hT hU
  unfold nutArg
  have m : ∀ {x y c : ℝ} (n : ℤ), |x - y| ≤ c * |T - U| → |x * n - y * n| ≤ c * n.natAbs * |T - U| := by
    intro x y c n h
    rw [← sub_mul, abs_mul, Nat.cast_natAbs, Int.cast_abs]
    calc |x - y| * |(n : ℝ)| ≤ c * |T - U| * |(n : ℝ)| := mul_le_mul_of_nonneg_right h (abs_nonneg _)
      _ = _ := by ring
  have e : ∀ a b c d f a' b' c' d' f' : ℝ, a + b + c + d + f - (a' + b' + c' + d' + f') =
    (a - a') + ((b - b') + ((c - c') + ((d - d') + (f - f')))) := by intros; ring
  rw [e]
  refine (abs_add_le _ _).trans ((add_le_add (m _ h1) ((abs_add_le _ _).trans (add_le_add (m _ h2)
    ((abs_add_le _ _).trans (add_le_add (m _ h3) ((abs_add_le _ _).trans (add_le_add (m _ h4)
    (m _ h5)))))))).trans (le_of_eq ?_))
  unfold nutRate dToR
  push_cast
  ring

theorem sum_lip {α : Type} (l : List α) (f : α → ℝ → ℝ) (c : α → ℝ) (T U : ℝ)
    (h : ∀ r ∈ l, |f r T - f r U| ≤ c r * |T - U|) :
    |(l.map fun r => f r T).sum - (l.map fun r => f r U).sum| ≤ (l.map c).sum * |T - U| := by
  induction l with
  | nil => simp
  | cons r l ih =>
    simp only [List.map_cons, List.sum_cons, add_sub_add_comm, add_mul]
    exact (abs_add_le _ _).trans (add_le_add (h r (by simp)) (ih fun r hr => h r (by simp [hr])))

theorem nutPsi_lip {T U : ℝ} (hT : |T| ≤ 60) (hU : |U| ≤ 60) :
    |nutPsi T - nutPsi U| ≤ 58000 * |T - U| := by
  unfold nutPsi
  refine (sum_lip _ (fun (r : NutRow) T => ((r.2.2.2.2.2.1 : ℝ) / 10000 +
    r.2.2.2.2.2.2.1 / 100000 * T) * sin (nutArg T r)) (fun r : NutRow =>
      ((r.2.2.2.2.2.1.natAbs * 10 + r.2.2.2.2.2.2.1.natAbs * 60) * nutRate r * 18 +
        r.2.2.2.2.2.2.1.natAbs * 1000 : ℕ) / (10 ^ 8 : ℝ)) T U ?_).trans ?_
  · intro r _
    set k := r.2.2.2.2.2.1
    set k' := r.2.2.2.2.2.2.1
    have a := nutArg_lip hT hU r
    have s := (abs_sin_sub_le (nutArg T r) (nutArg U r)).trans a
    have e : ((k : ℝ) / 10000 + k' / 100000 * T) * sin (nutArg T r) -
        ((k : ℝ) / 10000 + k' / 100000 * U) * sin (nutArg U r) =
        ((k : ℝ) / 10000 + k' / 100000 * T) * (sin (nutArg T r) - sin (nutArg U r)) +
        k' / 100000 * (T - U) * sin (nutArg U r) := by ring
    rw [e]
    have c1 : |(k : ℝ) / 10000 + k' / 100000 * T| ≤ k.natAbs / 10000 + k'.natAbs / 100000 * 60 := by
      refine (abs_add_le _ _).trans ?_
      rw [abs_mul, abs_div, abs_div, Nat.cast_natAbs, Nat.cast_natAbs, Int.cast_abs, Int.cast_abs,
        abs_of_pos (by norm_num : (0 : ℝ) < 10000), abs_of_pos (by norm_num : (0 : ℝ) < 100000)]
      gcongr
    have c2 : |(k' : ℝ) / 100000 * (T - U) * sin (nutArg U r)| ≤ k'.natAbs / 100000 * |T - U| := by
      rw [abs_mul]
      refine (mul_le_of_le_one_right (abs_nonneg _) (Real.abs_sin_le_one _)).trans (le_of_eq ?_)
      rw [abs_mul, abs_div, Nat.cast_natAbs, Int.cast_abs, abs_of_pos (by norm_num : (0 : ℝ) < 100000)]
    have d : dToR (nutRate r) ≤ nutRate r * 0.018 := by
      unfold dToR
      have := Real.pi_lt_d2
      have n : (0 : ℝ) ≤ nutRate r := Nat.cast_nonneg _
      rw [div_le_iff₀ (by norm_num)]
      norm_num at this ⊢
      nlinarith
    have c3 : |((k : ℝ) / 10000 + k' / 100000 * T) * (sin (nutArg T r) - sin (nutArg U r))| ≤
        (k.natAbs / 10000 + k'.natAbs / 100000 * 60) * (nutRate r * 0.018 * |T - U|) := by
      rw [abs_mul]
      refine mul_le_mul c1 (s.trans ?_) (abs_nonneg _) (by positivity)
      exact mul_le_mul_of_nonneg_right d (abs_nonneg _)
    refine (abs_add_le _ _).trans ((add_le_add c3 c2).trans (le_of_eq ?_))
    push_cast
    norm_num
    ring
  · refine mul_le_mul_of_nonneg_right ?_ (abs_nonneg _)
    have e : ∀ l : List NutRow, (l.map fun r : NutRow =>
      ((r.2.2.2.2.2.1.natAbs * 10 + r.2.2.2.2.2.2.1.natAbs * 60) * nutRate r * 18 +
        r.2.2.2.2.2.2.1.natAbs * 1000 : ℕ) / (10 ^ 8 : ℝ)).sum =
      ((l.map fun r : NutRow => (r.2.2.2.2.2.1.natAbs * 10 + r.2.2.2.2.2.2.1.natAbs * 60) *
        nutRate r * 18 + r.2.2.2.2.2.2.1.natAbs * 1000).sum : ℕ) / (10 ^ 8 : ℝ) := by
      intro l
      induction l with
      | nil => simp
      | cons r l ih => rw [List.map_cons, List.sum_cons, ih, List.map_cons, List.sum_cons]; push_cast; ring
    rw [e]
    have n : (Data.nutationTable.map fun r : NutRow => (r.2.2.2.2.2.1.natAbs * 10 +
        r.2.2.2.2.2.2.1.natAbs * 60) * nutRate r * 18 + r.2.2.2.2.2.2.1.natAbs * 1000).sum ≤
        58000 * 10 ^ 8 := by decide +kernel
    rw [div_le_iff₀ (by positivity)]
    have n' : (((Data.nutationTable.map fun r : NutRow => (r.2.2.2.2.2.1.natAbs * 10 +
        r.2.2.2.2.2.2.1.natAbs * 60) * nutRate r * 18 + r.2.2.2.2.2.2.1.natAbs * 1000).sum : ℕ) : ℝ) ≤
        (58000 * 10 ^ 8 : ℕ) := by exact_mod_cast n
    refine n'.trans (le_of_eq ?_)
    norm_num

end Verif

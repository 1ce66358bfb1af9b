import Verif.Model.FloatTrig
import Verif.Lemmas.Float
import Verif.Lemmas.Poisson
import Mathlib.Analysis.SpecialFunctions.Trigonometric.Bounds

/-!
# Rounding errors
-/

namespace Verif
open Real

/-- Half a unit in the last place, relative. -/
def uu : ℚ := 1 / 2 ^ 53
/-- Absorbs the absolute error near zero. -/
def ww : ℚ := 1 / 10 ^ 30

theorem uu_pos : (0 : ℚ) < uu := by norm_num [uu]
theorem ww_pos : (0 : ℚ) < ww := by norm_num [ww]
theorem uu_posR : (0 : ℝ) < uu := by exact_mod_cast uu_pos
theorem ww_posR : (0 : ℝ) < ww := by exact_mod_cast ww_pos

theorem FloatLike.err' {fl : ℚ → ℚ} (h : FloatLike fl) (x : ℚ) : |fl x - x| ≤ uu * (|x| + ww) := by
  refine (h.err x).trans ?_
  unfold uu ww
  have k : (2 : ℚ) ^ 53 * 10 ^ 30 ≤ 2 ^ 1074 :=
    (show (2 : ℚ) ^ 53 * 10 ^ 30 ≤ 2 ^ 153 by norm_num).trans (pow_le_pow_right₀ (by norm_num) (by norm_num))
  have : (1 : ℚ) / 2 ^ 1074 ≤ 1 / 2 ^ 53 * (1 / 10 ^ 30) := by
    rw [one_div_mul_one_div]
    exact one_div_le_one_div_of_le (by positivity) k
  linarith

theorem FloatLike.errR {fl : ℚ → ℚ} (h : FloatLike fl) (x : ℚ) :
    |(fl x : ℝ) - x| ≤ uu * (|(x : ℝ)| + ww) := by
  have := h.err' x
  exact_mod_cast this

/-- The float `x` is within `e` of the real `y`. -/
def Near (x : ℚ) (y e : ℝ) : Prop := |(x : ℝ) - y| ≤ e

theorem Near.nonneg {x : ℚ} {y e : ℝ} (h : Near x y e) : 0 ≤ e := (abs_nonneg _).trans h

theorem Near.mono {x : ℚ} {y e e' : ℝ} (h : Near x y e) (he : e ≤ e') : Near x y e' := le_trans h he

theorem Near.abs {x : ℚ} {y e M : ℝ} (h : Near x y e) (hM : |y| ≤ M) : |(x : ℝ)| ≤ M + e := by
  have := abs_add_le ((x : ℝ) - y) y
  rw [sub_add_cancel] at this
  unfold Near at h
  linarith

theorem near_self (x : ℚ) : Near x x 0 := by simp [Near]

theorem Near.fl {fl : ℚ → ℚ} (hf : FloatLike fl) {x : ℚ} {y e M : ℝ} (h : Near x y e) (hM : |y| ≤ M) :
    Near (fl x) y (e + uu * (M + e + ww)) := by
  have a := hf.errR x
  have b := h.abs hM
  have c : |(fl x : ℝ) - y| ≤ |(fl x : ℝ) - x| + |(x : ℝ) - y| := abs_sub_le _ _ _
  unfold Near at h ⊢
  have : (uu : ℝ) * (|(x : ℝ)| + ww) ≤ uu * (M + e + ww) :=
    mul_le_mul_of_nonneg_left (by linarith) uu_posR.le
  linarith

theorem Near.add {a b : ℚ} {x y e f : ℝ} (ha : Near a x e) (hb : Near b y f) : Near (a + b) (x + y) (e + f) := by
  unfold Near at *
  push_cast
  rw [show (a : ℝ) + b - (x + y) = (a - x) + (b - y) by ring]
  exact (abs_add_le _ _).trans (add_le_add ha hb)

theorem Near.neg {a : ℚ} {x e : ℝ} (ha : Near a x e) : Near (-a) (-x) e := by
  unfold Near at *
  push_cast
  rw [show -(a : ℝ) - -x = -(a - x) by ring, abs_neg]
  exact ha

theorem Near.sub {a b : ℚ} {x y e f : ℝ} (ha : Near a x e) (hb : Near b y f) : Near (a - b) (x - y) (e + f) := by
  rw [sub_eq_add_neg, sub_eq_add_neg]
  exact ha.add hb.neg

theorem Near.mul {a b : ℚ} {x y e f M N : ℝ} (ha : Near a x e) (hb : Near b y f) (hM : |x| ≤ M) (hN : |y| ≤ N) :
    Near (a * b) (x * y) (e * (N + f) + M * f) := by
  have hb' := hb.abs hN
  unfold Near at *
  push_cast
  rw [show (a : ℝ) * b - x * y = (a - x) * b + x * (b - y) by ring]
  refine (abs_add_le _ _).trans (add_le_add ?_ ?_)
  · rw [abs_mul]
    exact mul_le_mul ha hb' (abs_nonneg _) ((abs_nonneg _).trans ha)
  · rw [abs_mul]
    exact mul_le_mul hM hb (abs_nonneg _) ((abs_nonneg _).trans hM)

theorem Near.div_const {a : ℚ} {x e : ℝ} (ha : Near a x e) {k : ℚ} (hk : 0 < k) :
    Near (a / k) (x / k) (e / k) := by
  have hk' : (0 : ℝ) < k := by exact_mod_cast hk
  unfold Near at *
  push_cast
  rw [← sub_div, abs_div, abs_of_pos hk']
  exact div_le_div_of_nonneg_right ha hk'.le

theorem Near.cos {cosF : ℚ → ℚ} (hc : CosLike cosF) {a : ℚ} {x e : ℝ} (ha : Near a x e) :
    Near (cosF a) (cos x) (e + 8 * uu) := by
  have h := hc a
  have k : |Real.cos a - Real.cos x| ≤ |(a : ℝ) - x| := Real.abs_cos_sub_cos_le _ _
  have c : |(cosF a : ℝ) - Real.cos x| ≤ |(cosF a : ℝ) - Real.cos a| + |Real.cos a - Real.cos x| := abs_sub_le _ _ _
  have e8 : (8 * uu : ℝ) = 1 / 2 ^ 50 := by unfold uu; norm_num
  unfold Near at *
  rw [e8]
  linarith

/-- A rounded sum in pairs, `D` additions deep. -/
theorem FlSum.err {fl : ℚ → ℚ} (hf : FloatLike fl) {D : ℕ} {l : List ℚ} {s : ℚ} (h : FlSum fl D l s) :
    2 * uu * D ≤ 1 / 2 → |s - l.sum| ≤ 2 * uu * D * (l.map fun x => |x| + ww).sum := by
  have sum0 : ∀ l : List ℚ, 0 ≤ (l.map fun x => |x| + ww).sum := by
    intro l
    apply List.sum_nonneg
    intro y hy
    obtain ⟨x, -, rfl⟩ := List.mem_map.mp hy
    have := ww_pos; positivity
  have abs_sum : ∀ l : List ℚ, |l.sum| ≤ (l.map fun x => |x| + ww).sum := by
    intro l
    induction l with
    | nil => simp
    | cons x l ih =>
      rw [List.sum_cons, List.map_cons, List.sum_cons]
      have := ww_pos
      exact (abs_add_le _ _).trans (add_le_add (by linarith) ih)
  have abs_sum' : ∀ l : List ℚ, l ≠ [] → |l.sum| + ww ≤ (l.map fun x => |x| + ww).sum := by
    intro l hl
    cases l with
    | nil => exact absurd rfl hl
    | cons x l =>
      rw [List.sum_cons, List.map_cons, List.sum_cons]
      have := abs_add_le x l.sum
      linarith [abs_sum l]
  induction h with
  | nil D => intro _; simp
  | one D x =>
    intro _
    simp only [List.sum_singleton, sub_self, abs_zero]
    exact mul_nonneg (mul_nonneg (by norm_num [uu]) (Nat.cast_nonneg _)) (sum0 _)
  | @add D l m a b hl hm ihl ihm =>
    intro hD
    push_cast at hD
    have u0 := uu_pos
    have hD' : 2 * uu * D ≤ 1 / 2 := by linarith
    have el := ihl hD'
    have em := ihm hD'
    by_cases hne : l ++ m = []
    · obtain ⟨rfl, rfl⟩ := List.append_eq_nil_iff.mp hne
      simp at el em ⊢
      subst el em
      have := hf.fix 0 ⟨0, 0, by norm_num, by norm_num, by norm_num⟩
      simp [this]
    have hM := abs_sum' _ hne
    have hMl := sum0 l
    have hMm := sum0 m
    have e := hf.err' (a + b)
    rw [List.map_append, List.sum_append] at hM ⊢
    rw [List.sum_append] at hM ⊢
    generalize (l.map fun x => |x| + ww).sum = P at *
    generalize (m.map fun x => |x| + ww).sum = Q at *
    generalize l.sum = p at *
    generalize m.sum = q at *
    have t : |a + b - (p + q)| ≤ 2 * uu * D * (P + Q) := by
      rw [show a + b - (p + q) = (a - p) + (b - q) by ring, mul_add]
      exact (abs_add_le _ _).trans (add_le_add el em)
    have t2 : 2 * uu * D * (P + Q) ≤ 1 / 2 * (P + Q) := mul_le_mul_of_nonneg_right hD' (by linarith)
    have t3 : |a + b| ≤ |a + b - (p + q)| + |p + q| := by
      have := abs_add_le (a + b - (p + q)) (p + q); rwa [sub_add_cancel] at this
    have t4 : |fl (a + b) - (p + q)| ≤ |fl (a + b) - (a + b)| + |a + b - (p + q)| := abs_sub_le _ _ _
    have t5 : uu * (|a + b| + ww) ≤ uu * (3 / 2 * (P + Q)) := mul_le_mul_of_nonneg_left (by linarith) u0.le
    push_cast
    nlinarith [mul_nonneg u0.le (add_nonneg hMl hMm)]
  | @perm D l m s hp hl ih =>
    intro hD
    rw [← hp.sum_eq, ← (hp.map _).sum_eq]
    exact ih hD

/-- Arithmetic: the argument of the cosine. -/
theorem arg_arith {u w B C T : ℝ} (hu : 0 < u) (hu1 : u ≤ 1 / 2 ^ 53) (hw : 0 < w)
    (hB : 0 ≤ B) (hC : 0 ≤ C) (hT : 0 ≤ T) (hT6 : T ≤ 6)
    {e2 e3 e5 : ℝ} (h2 : e2 = u * (C + w) * (T + 5 * u * T) + C * (5 * u * T))
    (h3 : e3 = e2 + u * (C * T + e2 + w)) (h5 : e5 = u * (B + w) + e3) :
    e5 + u * (B + C * T + e5 + w) + 8 * u ≤ u * (3 * B + 9 * (C * T) + 9 + 20 * w) := by
  have c0 : 0 ≤ C * T := mul_nonneg hC hT
  have wT : w * T ≤ 6 * w := by nlinarith
  have u1 : 5 * u ≤ 0.0001 := by norm_num at hu1 ⊢; linarith
  have b2 : e2 ≤ u * (6.001 * (C * T) + 7 * w) := by
    have k : (C * T + w * T) * (5 * u) ≤ (C * T + w * T) * 0.0001 :=
      mul_le_mul_of_nonneg_left u1 (by positivity)
    have : e2 = u * ((C * T + w * T) + (C * T + w * T) * (5 * u) + 5 * (C * T)) := by rw [h2]; ring
    rw [this]
    apply mul_le_mul_of_nonneg_left _ hu.le
    norm_num at k ⊢; linarith
  have e20 : 0 ≤ e2 := by rw [h2]; positivity
  have s1 : ∀ x : ℝ, 0 ≤ x → u * x ≤ 0.0001 * x := fun x hx =>
    mul_le_mul_of_nonneg_right (by linarith) hx
  have b3 : e3 ≤ u * (7.01 * (C * T) + 9 * w) := by
    have k := s1 (6.001 * (C * T) + 7 * w) (by positivity)
    have : u * (C * T + e2 + w) ≤ u * (C * T + 0.0001 * (6.001 * (C * T) + 7 * w) + w) :=
      mul_le_mul_of_nonneg_left (by linarith) hu.le
    rw [h3]
    norm_num at this b2 ⊢
    nlinarith [mul_nonneg hu.le c0, mul_nonneg hu.le hw.le]
  have b5 : e5 ≤ u * (B + 7.01 * (C * T) + 10 * w) := by rw [h5]; linarith
  have k := s1 (B + 7.01 * (C * T) + 10 * w) (by positivity)
  have : u * (B + C * T + e5 + w) ≤ u * (B + C * T + 0.0001 * (B + 7.01 * (C * T) + 10 * w) + w) :=
    mul_le_mul_of_nonneg_left (by linarith) hu.le
  norm_num at this b5 ⊢
  nlinarith [mul_nonneg hu.le c0, mul_nonneg hu.le hw.le, mul_nonneg hu.le hB]

/-- Arithmetic: the product with the amplitude. -/
theorem term_arith {u w A B c : ℝ} (hu : 0 < u) (hu1 : u ≤ 1 / 2 ^ 53) (hw : 0 < w) (hw1 : w ≤ 1 / 10 ^ 30)
    (hA : 0 ≤ A) (hB : 0 ≤ B) (hB1 : B ≤ 6.29) (hc : 0 ≤ c) (hc1 : c ≤ 2 ^ 25) {e7 e9 : ℝ}
    (he : e7 ≤ u * (3 * B + 9 * c + 9 + 20 * w)) (h0 : 0 ≤ e7)
    (h9 : e9 = u * (A + w) * (1 + e7) + A * e7) :
    e9 + u * (A * 1 + e9 + w) ≤ u * (31 * A + 10 * (A * c) + 3 * w) := by
  have Ac := mul_nonneg hA hc
  have b7 : e7 ≤ u * (27.9 + 9 * c) := he.trans (mul_le_mul_of_nonneg_left (by norm_num at hB1 hw1 ⊢; linarith) hu.le)
  have b7' : e7 ≤ 0.001 := by
    refine b7.trans ?_
    have : 27.9 + 9 * c ≤ 2 ^ 29 := by norm_num at hc1 ⊢; linarith
    refine (mul_le_mul hu1 this (by positivity) (by positivity)).trans ?_
    norm_num
  have b9 : e9 ≤ u * (28.91 * A + 9 * (A * c) + 1.001 * w) := by
    have k1 : u * (A + w) * (1 + e7) ≤ u * (A + w) * 1.001 :=
      mul_le_mul_of_nonneg_left (by norm_num at b7' ⊢; linarith) (by positivity)
    have k2 : A * e7 ≤ A * (u * (27.9 + 9 * c)) := mul_le_mul_of_nonneg_left b7 hA
    rw [h9]
    norm_num at k1 k2 ⊢
    nlinarith [mul_nonneg hu.le hA, mul_nonneg hu.le hw.le]
  have b9' : e9 ≤ 0.0001 * (28.91 * A + 9 * (A * c) + 1.001 * w) :=
    b9.trans (mul_le_mul_of_nonneg_right (by norm_num at hu1 ⊢; linarith) (by positivity))
  have : u * (A * 1 + e9 + w) ≤ u * (A + 0.0001 * (28.91 * A + 9 * (A * c) + 1.001 * w) + w) :=
    mul_le_mul_of_nonneg_left (by linarith) hu.le
  norm_num at this b9 ⊢
  nlinarith [mul_nonneg hu.le hA, mul_nonneg hu.le hw.le, mul_nonneg hu.le Ac]

theorem uu_leR : (uu : ℝ) ≤ 1 / 2 ^ 53 := by unfold uu; norm_num
theorem ww_leR : (ww : ℝ) ≤ 1 / 10 ^ 30 := by unfold ww; norm_num

/-- The literals of a term are in the range needed for the error bound. -/
def termOk (r : Term) : Bool := decide (r.2.1 ≤ 629 * 10 ^ 9) && decide (r.2.2 ≤ 2 ^ 22 * 10 ^ 11)

theorem vsopTerm_near {fl : ℚ → ℚ} (hf : FloatLike fl) {cosF : ℚ → ℚ} (hc : CosLike cosF) {r : Term}
    (hr : termOk r = true) {tau : ℚ} {τ T : ℝ} (ht : Near tau τ (5 * uu * T)) (hτ : |τ| ≤ T) (hT6 : T ≤ 6) :
    Near (vsopTermF fl cosF r tau) (vsopTerm r τ)
      (uu * (31 * (r.1 / 10 ^ 11) + 10 * (r.1 / 10 ^ 11 * (r.2.2 / 10 ^ 11 * T)) + 3 * ww)) := by
  obtain ⟨a, b, c⟩ := r
  unfold termOk at hr
  simp only [Bool.and_eq_true, decide_eq_true_eq] at hr
  obtain ⟨h1, h2⟩ := hr
  have h1 : (b : ℝ) ≤ 629 * 10 ^ 9 := by exact_mod_cast h1
  have h2 : (c : ℝ) ≤ 2 ^ 22 * 10 ^ 11 := by exact_mod_cast h2
  have T0 : 0 ≤ T := (abs_nonneg _).trans hτ
  have lit : ∀ n : ℕ, Near (fl ((n : ℚ) / 10 ^ 11)) ((n : ℝ) / 10 ^ 11) (uu * ((n : ℝ) / 10 ^ 11 + ww)) := by
    intro n
    have := (near_self ((n : ℚ) / 10 ^ 11)).fl hf (M := (n : ℝ) / 10 ^ 11) (by
      push_cast; rw [abs_of_nonneg (by positivity)])
    push_cast at this
    simpa using this
  have nC := lit c
  have nB := lit b
  have nA := lit a
  have abC : |(c : ℝ) / 10 ^ 11| ≤ (c : ℝ) / 10 ^ 11 := (abs_of_nonneg (by positivity)).le
  have abB : |(b : ℝ) / 10 ^ 11| ≤ (b : ℝ) / 10 ^ 11 := (abs_of_nonneg (by positivity)).le
  have abA : |(a : ℝ) / 10 ^ 11| ≤ (a : ℝ) / 10 ^ 11 := (abs_of_nonneg (by positivity)).le
  have B1 : (b : ℝ) / 10 ^ 11 ≤ 6.29 := by rw [div_le_iff₀ (by positivity)]; norm_num at h1 ⊢; linarith
  have C1 : (c : ℝ) / 10 ^ 11 * T ≤ 2 ^ 25 := by
    have : (c : ℝ) / 10 ^ 11 ≤ 2 ^ 22 := by rw [div_le_iff₀ (by positivity)]; exact h2
    refine (mul_le_mul this hT6 T0 (by positivity)).trans (by norm_num)
  have abCT : |(c : ℝ) / 10 ^ 11 * τ| ≤ (c : ℝ) / 10 ^ 11 * T := by
    rw [abs_mul]; exact mul_le_mul abC hτ (abs_nonneg _) (by positivity)
  have n3 := (nC.mul ht abC hτ).fl hf abCT
  have abS : |(b : ℝ) / 10 ^ 11 + c / 10 ^ 11 * τ| ≤ (b : ℝ) / 10 ^ 11 + c / 10 ^ 11 * T :=
    (abs_add_le _ _).trans (add_le_add abB abCT)
  have n7 := ((nB.add n3).fl hf abS).cos hc
  have n9 := nA.mul n7 abA (Real.abs_cos_le_one _)
  have abR : |(a : ℝ) / 10 ^ 11 * cos (b / 10 ^ 11 + c / 10 ^ 11 * τ)| ≤ (a : ℝ) / 10 ^ 11 * 1 := by
    rw [abs_mul]; exact mul_le_mul abA (Real.abs_cos_le_one _) (abs_nonneg _) (by positivity)
  have n10 := n9.fl hf abR
  refine n10.mono ?_
  exact term_arith uu_posR uu_leR ww_posR ww_leR (by positivity) (by positivity) B1 (by positivity) C1
    (arg_arith uu_posR uu_leR ww_posR (by positivity) (by positivity) T0 hT6 rfl rfl rfl) n7.nonneg rfl

end Verif

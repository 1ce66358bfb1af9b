import Verif.Lemmas.CosNat
import Verif.Lemmas.Poisson

/-!
# Evaluating the planetary series in natural numbers

At `k` centuries before J2000 the argument of a row is `(10 B - k C) * 1e-12`.
-/

namespace Verif
open Real

/-- `|10 B - k C|`. -/
noncomputable def argN (k : Nat) (r : Term) : Nat :=
  slet 0 (Nat.mul 10 r.2.1) fun b => slet 0 (Nat.mul k r.2.2) fun c =>
    bsel (Nat.ble b c) (Nat.sub c b) (Nat.sub b c)

/-- Sum over a series of `A (1 + cos) 2 ^ 128`. -/
noncomputable def sumN (k : Nat) (s : List Term) (acc : Nat) : Nat :=
  List.rec (motive := fun _ => Nat → Nat) (fun acc => acc)
    (fun r _ ih acc => slet 0 (Nat.add acc (Nat.mul r.1 (cosN (argN k r)))) ih) s acc

/-- Sum of the amplitudes. -/
noncomputable def amplN (s : List Term) (acc : Nat) : Nat :=
  List.rec (motive := fun _ => Nat → Nat) (fun acc => acc)
    (fun r _ ih acc => slet 0 (Nat.add acc r.1) ih) s acc

/-- Sum of amplitude times the largest argument. -/
noncomputable def speedN (s : List Term) (acc : Nat) : Nat :=
  List.rec (motive := fun _ => Nat → Nat) (fun acc => acc)
    (fun r _ ih acc => slet 0 (Nat.add acc (Nat.mul r.1 (Nat.add (Nat.mul 10 r.2.1)
      (Nat.mul 9 r.2.2)))) ih) s acc

/-- Positive part, negative part and scale of the value of a table. -/
noncomputable def goN (k : Nat) (c : List (List Term)) (K : Nat → Nat → Nat → Bool) : Bool :=
  List.rec (motive := fun _ => (Nat → Nat → Nat → Bool) → Bool) (fun K => K 0 0 1)
    (fun s _ ih K => ih fun p n w =>
      slet false (Nat.add (Nat.mul w (sumN k s 0)) (Nat.mul k n)) fun p' =>
      slet false (Nat.add (Nat.mul (Nat.mul w (amplN s 0)) 340282366920938463463374607431768211456)
        (Nat.mul k p)) fun n' =>
      slet false (Nat.mul 10 w) fun w' => K p' n' w') c K

/-- Comparison with `t - 10 ^ 25` in units of `1e-20`, tolerance `9.6e-11`. -/
noncomputable def inN (t p n w : Nat) : Bool :=
  slet false (Nat.mul w 340282366920938463463374607431768211456) fun q =>
  slet false (Nat.add (Nat.mul 10000000000 p) (Nat.mul 10000000000000000000000000 q)) fun x =>
  slet false (Nat.add (Nat.mul 10000000000 n) (Nat.mul t q)) fun y =>
  slet false (Nat.mul 9600000000 q) fun d =>
    bsel (Nat.ble x (Nat.add y d)) (Nat.ble y (Nat.add x d)) false

/-- The sums which enter the bound of the error are not too large. -/
noncomputable def smallN (c : List (List Term)) : Bool :=
  List.rec (motive := fun _ => Bool) true
    (fun s _ ih => bsel (Nat.ble (amplN s 0) 10000000000000000)
      (bsel (Nat.ble (speedN s 0) 10000000000000000000000000000) ih false) false) c

/-- All the given pairs of a date and a target are met. -/
noncomputable def allN (c : List (List Term)) (l : List (Nat × Nat)) : Bool :=
  List.rec (motive := fun _ => Bool) true
    (fun e _ ih => bsel (goN e.1 c (inN e.2)) ih false) l

/-! ## Correctness -/

theorem argN_eq (k : ℕ) (r : Term) :
    (argN k r : ℝ) = |10 * (r.2.1 : ℝ) - k * r.2.2| := by
  have e : argN k r = if Nat.ble (10 * r.2.1) (k * r.2.2) = true then k * r.2.2 - 10 * r.2.1
      else 10 * r.2.1 - k * r.2.2 := by
    rw [argN, slet_eq, slet_eq, bsel_eq]; rfl
  rw [e]
  split_ifs with h
  · have h := Nat.le_of_ble_eq_true h
    have h' : (10 : ℝ) * r.2.1 ≤ k * r.2.2 := by exact_mod_cast h
    rw [Nat.cast_sub h, abs_of_nonpos (by linarith)]
    push_cast; ring
  · have h : k * r.2.2 ≤ 10 * r.2.1 := by
      by_contra h'
      exact h (Nat.ble_eq_true_of_le (by omega))
    have h' : (k : ℝ) * r.2.2 ≤ 10 * r.2.1 := by exact_mod_cast h
    rw [Nat.cast_sub h, abs_of_nonneg (by linarith)]
    push_cast; ring

theorem sumN_eq (k : ℕ) (s : List Term) : ∀ acc,
    sumN k s acc = acc + (s.map fun r => r.1 * cosN (argN k r)).sum := by
  induction s with
  | nil => intro acc; rfl
  | cons r s ih =>
    intro acc
    have : sumN k (r :: s) acc =
      slet 0 (Nat.add acc (Nat.mul r.1 (cosN (argN k r)))) (sumN k s) := rfl
    rw [this, slet_eq, ih, nmul, Nat.add_eq, List.map_cons, List.sum_cons, add_assoc]

theorem amplN_eq (s : List Term) : ∀ acc, amplN s acc = acc + (s.map fun r => r.1).sum := by
  induction s with
  | nil => intro acc; rfl
  | cons r s ih =>
    intro acc
    have : amplN (r :: s) acc = slet 0 (Nat.add acc r.1) (amplN s) := rfl
    rw [this, slet_eq, ih, Nat.add_eq, List.map_cons, List.sum_cons, add_assoc]

theorem speedN_eq (s : List Term) : ∀ acc,
    speedN s acc = acc + (s.map fun r => r.1 * (10 * r.2.1 + 9 * r.2.2)).sum := by
  induction s with
  | nil => intro acc; rfl
  | cons r s ih =>
    intro acc
    have : speedN (r :: s) acc = slet 0 (Nat.add acc (Nat.mul r.1 (Nat.add (Nat.mul 10 r.2.1)
      (Nat.mul 9 r.2.2)))) (speedN s) := rfl
    rw [this, slet_eq, ih, nmul, nmul, nmul, Nat.add_eq, Nat.add_eq, List.map_cons, List.sum_cons, add_assoc]

theorem rowN_near {k : ℕ} (hk : k ≤ 9) (r : Term) :
    |(r.1 * cosN (argN k r) : ℕ) / 2 ^ 128 - (r.1 : ℝ) - 10 ^ 11 * vsopTerm r (-k / 10)| ≤
      3e-18 * r.1 + 1e-32 * ((r.1 * (10 * r.2.1 + 9 * r.2.2) : ℕ) : ℝ) := by
  have h := cosN_near (argN k r)
  have ea := argN_eq k r
  have ec : cos ((argN k r : ℝ) * 1e-12) =
      cos (r.2.1 / 10 ^ 11 + r.2.2 / 10 ^ 11 * (-k / 10)) := by
    have : r.2.1 / 10 ^ 11 + r.2.2 / 10 ^ 11 * (-(k : ℝ) / 10) =
        (10 * (r.2.1 : ℝ) - k * r.2.2) * 1e-12 := by norm_num; ring
    rw [this, ea, ← cos_abs ((10 * (r.2.1 : ℝ) - k * r.2.2) * 1e-12), abs_mul,
      abs_of_pos (by norm_num : (0 : ℝ) < 1e-12)]
  have hb : (argN k r : ℝ) ≤ 10 * (r.2.1 : ℝ) + 9 * r.2.2 := by
    rw [ea, abs_le]
    have h9 : (k : ℝ) ≤ 9 := by exact_mod_cast hk
    have := mul_le_mul_of_nonneg_right h9 (Nat.cast_nonneg r.2.2 : (0 : ℝ) ≤ r.2.2)
    have b0 : (0 : ℝ) ≤ r.2.1 := Nat.cast_nonneg _
    have c0 : (0 : ℝ) ≤ r.2.2 := Nat.cast_nonneg _
    have k0 : (0 : ℝ) ≤ k * r.2.2 := by positivity
    constructor <;> linarith
  rw [ec] at h
  have e : ((r.1 * cosN (argN k r) : ℕ) : ℝ) / 2 ^ 128 - (r.1 : ℝ) -
      10 ^ 11 * vsopTerm r (-k / 10) = r.1 * ((cosN (argN k r) : ℝ) / 2 ^ 128 -
      (1 + cos (r.2.1 / 10 ^ 11 + r.2.2 / 10 ^ 11 * (-k / 10)))) := by
    rw [vsopTerm]; push_cast; ring
  rw [e, abs_mul, Nat.abs_cast]
  calc (r.1 : ℝ) * _ ≤ r.1 * (3e-18 + 1e-32 * (10 * (r.2.1 : ℝ) + 9 * r.2.2)) := by
        refine mul_le_mul_of_nonneg_left (h.trans ?_) (Nat.cast_nonneg _)
        gcongr
    _ = _ := by push_cast; ring

theorem seriesN_near {k : ℕ} (hk : k ≤ 9) (s : List Term) :
    |((s.map fun r => r.1 * cosN (argN k r)).sum : ℕ) / 2 ^ 128 -
      (((s.map fun r => r.1).sum : ℕ) : ℝ) - 10 ^ 11 * seriesVal s (-k / 10)| ≤
      3e-18 * (((s.map fun r => r.1).sum : ℕ) : ℝ) +
        1e-32 * (((s.map fun r => r.1 * (10 * r.2.1 + 9 * r.2.2)).sum : ℕ) : ℝ) := by
  induction s with
  | nil => simp [seriesVal]
  | cons r s ih =>
    have h := rowN_near hk r
    rw [seriesVal] at *
    simp only [List.map_cons, List.sum_cons]
    rw [Nat.cast_add, Nat.cast_add, Nat.cast_add]
    generalize ((r.1 * cosN (argN k r) : ℕ) : ℝ) = x1 at *
    generalize (((s.map fun r => r.1 * cosN (argN k r)).sum : ℕ) : ℝ) = x2 at *
    generalize (((s.map fun r => r.1).sum : ℕ) : ℝ) = x3 at *
    generalize ((r.1 * (10 * r.2.1 + 9 * r.2.2) : ℕ) : ℝ) = x4 at *
    generalize (((s.map fun r => r.1 * (10 * r.2.1 + 9 * r.2.2)).sum : ℕ) : ℝ) = x5 at *
    generalize vsopTerm r (-k / 10) = y1 at *
    generalize (s.map fun r => vsopTerm r (-k / 10)).sum = y2 at *
    have e : (x1 + x2) / 2 ^ 128 - (r.1 + x3) - 10 ^ 11 * (y1 + y2) =
        (x1 / 2 ^ 128 - r.1 - 10 ^ 11 * y1) + (x2 / 2 ^ 128 - x3 - 10 ^ 11 * y2) := by ring
    rw [e]
    refine (abs_add_le _ _).trans ((add_le_add h ih).trans (le_of_eq ?_))
    ring

/-- Positive and negative part computed by `goN`. -/
noncomputable def partN (k : ℕ) : List (List Term) → ℕ × ℕ
  | [] => (0, 0)
  | s :: c => (10 ^ c.length * sumN k s 0 + k * (partN k c).2,
      10 ^ c.length * amplN s 0 * 2 ^ 128 + k * (partN k c).1)

theorem goN_eq (k : ℕ) (c : List (List Term)) : ∀ K,
    goN k c K = K (partN k c).1 (partN k c).2 (10 ^ c.length) := by
  induction c with
  | nil => intro K; rfl
  | cons s c ih =>
    intro K
    have : goN k (s :: c) K = goN k c fun p n w =>
      slet false (Nat.add (Nat.mul w (sumN k s 0)) (Nat.mul k n)) fun p' =>
      slet false (Nat.add (Nat.mul (Nat.mul w (amplN s 0)) 340282366920938463463374607431768211456)
        (Nat.mul k p)) fun n' =>
      slet false (Nat.mul 10 w) fun w' => K p' n' w' := by
      unfold goN; rfl
    rw [this, ih, slet_eq, slet_eq, slet_eq, nmul, nmul, nmul, nmul, nmul, nmul, Nat.add_eq,
      Nat.add_eq, n128]
    rw [partN, List.length_cons, show 10 * 10 ^ c.length = 10 ^ (c.length + 1) from (pow_succ' _ _).symm]

theorem smallN_spec {c : List (List Term)} (h : smallN c = true) : ∀ s ∈ c,
    (s.map fun r => r.1).sum ≤ 10 ^ 16 ∧
      (s.map fun r => r.1 * (10 * r.2.1 + 9 * r.2.2)).sum ≤ 10 ^ 28 := by
  induction c with
  | nil => simp
  | cons s c ih =>
    have e : smallN (s :: c) = bsel (Nat.ble (amplN s 0) 10000000000000000)
      (bsel (Nat.ble (speedN s 0) 10000000000000000000000000000) (smallN c) false) false := rfl
    rw [e, bsel_eq, bsel_eq] at h
    split_ifs at h with h1 h2
    have h1 := Nat.le_of_ble_eq_true h1
    have h2 := Nat.le_of_ble_eq_true h2
    rw [amplN_eq, zero_add] at h1
    rw [speedN_eq, zero_add] at h2
    intro s' hs'
    rcases List.mem_cons.1 hs' with rfl | hs'
    · exact ⟨h1.trans (by norm_num), h2.trans (by norm_num)⟩
    · exact ih h s' hs'

theorem part_near {k : ℕ} (hk : k ≤ 9) (c : List (List Term)) (h : ∀ s ∈ c,
    (s.map fun r => r.1).sum ≤ 10 ^ 16 ∧
      (s.map fun r => r.1 * (10 * r.2.1 + 9 * r.2.2)).sum ≤ 10 ^ 28) :
    |10 * (((partN k c).1 : ℝ) - (partN k c).2) / (10 ^ c.length * 2 ^ 128) -
      10 ^ 11 * pval c (-k / 10)| ≤ 0.302 := by
  induction c with
  | nil => simp [partN, pval]; norm_num
  | cons s c ih =>
    have ih := ih fun s' hs' => h s' (List.mem_cons_of_mem _ hs')
    obtain ⟨a1, a2⟩ := h s List.mem_cons_self
    have hs := seriesN_near hk s
    rw [partN, pval, sumN_eq, amplN_eq, zero_add, zero_add, List.length_cons]
    generalize (s.map fun r => r.1 * cosN (argN k r)).sum = S at *
    generalize (s.map fun r => r.1).sum = A at *
    generalize (s.map fun r => r.1 * (10 * r.2.1 + 9 * r.2.2)).sum = V at *
    have a1' : (A : ℝ) ≤ 10 ^ 16 := by exact_mod_cast a1
    have a2' : (V : ℝ) ≤ 10 ^ 28 := by exact_mod_cast a2
    have w0 : (0 : ℝ) < 10 ^ c.length := by positivity
    have k0 : (0 : ℝ) ≤ k := Nat.cast_nonneg _
    have k9 : (k : ℝ) ≤ 9 := by exact_mod_cast hk
    have e : 10 * (((10 ^ c.length * S + k * (partN k c).2 : ℕ) : ℝ) -
        ((10 ^ c.length * A * 2 ^ 128 + k * (partN k c).1 : ℕ) : ℝ)) /
        (10 ^ (c.length + 1) * 2 ^ 128) - 10 ^ 11 * (seriesVal s (-k / 10) +
          -k / 10 * pval c (-k / 10)) =
        ((S : ℝ) / 2 ^ 128 - A - 10 ^ 11 * seriesVal s (-k / 10)) +
          -k / 10 * (10 * (((partN k c).1 : ℝ) - (partN k c).2) / (10 ^ c.length * 2 ^ 128) -
            10 ^ 11 * pval c (-k / 10)) := by
      simp only [Nat.cast_add, Nat.cast_mul, Nat.cast_pow, Nat.cast_ofNat]
      generalize ((partN k c).1 : ℝ) = P at *
      generalize ((partN k c).2 : ℝ) = N at *
      rw [pow_succ]
      field_simp
      ring
    rw [e]
    refine (abs_add_le _ _).trans ?_
    rw [abs_mul]
    have hk' : |-(k : ℝ) / 10| ≤ 9 / 10 := by
      rw [abs_div, abs_neg, Nat.abs_cast, abs_of_pos (by norm_num : (0 : ℝ) < 10)]
      gcongr
    have := mul_le_mul hk' ih (abs_nonneg _) (by norm_num)
    have hs' : 3e-18 * (A : ℝ) + 1e-32 * (V : ℝ) ≤ 0.0301 := by
      generalize (A : ℝ) = A at *
      generalize (V : ℝ) = V at *
      norm_num at a1' a2' ⊢; linarith
    refine (add_le_add (hs.trans hs') this).trans ?_
    norm_num

theorem ten10 : (10000000000 : ℕ) = 10 ^ 10 := by norm_num
theorem ten25 : (10000000000000000000000000 : ℕ) = 10 ^ 25 := by norm_num

theorem inN_spec {t p n w : ℕ} (hw : 0 < w) (h : inN t p n w = true) :
    |((p : ℝ) - n) / (w * 2 ^ 128) - ((t : ℝ) - 10 ^ 25) * 1e-10| ≤ 0.96 := by
  have e : inN t p n w = if Nat.ble (10 ^ 10 * p + 10 ^ 25 * (w * 2 ^ 128))
      (10 ^ 10 * n + t * (w * 2 ^ 128) + 9600000000 * (w * 2 ^ 128)) = true then
      Nat.ble (10 ^ 10 * n + t * (w * 2 ^ 128))
        (10 ^ 10 * p + 10 ^ 25 * (w * 2 ^ 128) + 9600000000 * (w * 2 ^ 128)) else false := by
    rw [inN, slet_eq, slet_eq, slet_eq, slet_eq, bsel_eq]
    simp only [nmul, Nat.add_eq, n128, ten10, ten25]
  rw [e] at h
  split_ifs at h with h1
  have h1 := Nat.le_of_ble_eq_true h1
  have h2 := Nat.le_of_ble_eq_true h
  have h1' : ((10 ^ 10 * p + 10 ^ 25 * (w * 2 ^ 128) : ℕ) : ℝ) ≤
    ((10 ^ 10 * n + t * (w * 2 ^ 128) + 9600000000 * (w * 2 ^ 128) : ℕ) : ℝ) := Nat.cast_le.2 h1
  have h2' : ((10 ^ 10 * n + t * (w * 2 ^ 128) : ℕ) : ℝ) ≤
    ((10 ^ 10 * p + 10 ^ 25 * (w * 2 ^ 128) + 9600000000 * (w * 2 ^ 128) : ℕ) : ℝ) := Nat.cast_le.2 h2
  simp only [Nat.cast_add, Nat.cast_mul, Nat.cast_pow, Nat.cast_ofNat] at h1' h2'
  clear h1 h2 h e
  have q0 : (0 : ℝ) < (w : ℝ) * 2 ^ 128 := by
    have : (0 : ℝ) < w := by exact_mod_cast hw
    positivity
  generalize (w : ℝ) * 2 ^ 128 = q at *
  generalize (p : ℝ) = p at *
  generalize (n : ℝ) = n at *
  generalize (t : ℝ) = t at *
  rw [abs_le, le_sub_iff_add_le, sub_le_iff_le_add, le_div_iff₀ q0, div_le_iff₀ q0]
  norm_num at *
  constructor <;> nlinarith

/-- A check which succeeds bounds the value of the series. -/
theorem goN_spec {k : ℕ} (hk : k ≤ 9) {c : List (List Term)} (hs : smallN c = true) {t : ℕ}
    (h : goN k c (inN t) = true) :
    |poisson c (-k / 10) - ((t : ℝ) - 10 ^ 25) * 1e-20| ≤ 9.95e-11 := by
  rw [goN_eq] at h
  have h1 := inN_spec (by positivity) h
  have h2 := part_near hk c (smallN_spec hs)
  rw [poisson_eq_pval]
  rw [Nat.cast_pow, Nat.cast_ofNat] at h1
  have e : 10 * (((partN k c).1 : ℝ) - (partN k c).2) / (10 ^ c.length * 2 ^ 128) =
      10 * ((((partN k c).1 : ℝ) - (partN k c).2) / (10 ^ c.length * 2 ^ 128)) := mul_div_assoc _ _ _
  rw [e] at h2
  generalize (((partN k c).1 : ℝ) - (partN k c).2) / (10 ^ c.length * 2 ^ 128) = x at *
  generalize pval c (-k / 10) = y at *
  generalize (t : ℝ) = t at *
  clear e h
  rw [abs_le] at *
  norm_num at h1 h2 ⊢
  constructor <;> linarith [h1.1, h1.2, h2.1, h2.2]

theorem allN_spec {c : List (List Term)} (hs : smallN c = true) {l : List (ℕ × ℕ)}
    (h : allN c l = true) : ∀ e ∈ l, e.1 ≤ 9 →
    |poisson c (-(e.1 : ℝ) / 10) - ((e.2 : ℝ) - 10 ^ 25) * 1e-20| ≤ 9.95e-11 := by
  induction l with
  | nil => simp
  | cons a l ih =>
    have e : allN c (a :: l) = bsel (goN a.1 c (inN a.2)) (allN c l) false := rfl
    rw [e, bsel_eq] at h
    split_ifs at h with h1
    intro e he hk
    rcases List.mem_cons.1 he with rfl | he
    · exact goN_spec hk hs h1
    · exact ih h e he hk

end Verif

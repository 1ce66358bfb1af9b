import Mathlib.Analysis.Real.Pi.Bounds
import Mathlib.Analysis.SpecialFunctions.Trigonometric.Bounds

/-!
# A cosine in natural number arithmetic

`cosN n` is `(1 + cos (n * 1e-12)) * 2 ^ 128` up to a proved error.  It uses nothing but operations
on natural numbers for which the kernel has its own arithmetic, so that the kernel can evaluate the
long trigonometric series of the planetary theory.
-/

namespace Verif
open Real

/-- `body x`, with `x` evaluated first. -/
noncomputable def slet {α : Type} (d : α) (x : Nat) (body : Nat → α) : α :=
  Nat.rec (motive := fun _ => α) d (fun k _ => body k) (Nat.add x 1)

theorem slet_eq {α : Type} (d : α) (x : Nat) (body : Nat → α) : slet d x body = body x := rfl

/-- Selection by a Boolean. -/
noncomputable def bsel {α : Type} (b : Bool) (x y : α) : α := Bool.rec y x b

theorem bsel_eq {α : Type} (b : Bool) (x y : α) : bsel b x y = if b = true then x else y := by
  cases b <;> rfl

/-- Alternating Horner scheme `a₀ - g (a₁ - g (a₂ - …))` for fractions of `2 ^ 128`. -/
noncomputable def hornN (g : Nat) (l : List Nat) : Nat :=
  List.rec (motive := fun _ => Nat) 0
    (fun a _ ih => Nat.sub a (Nat.div (Nat.mul ih g) 340282366920938463463374607431768211456)) l

/-- `(2π) ^ (2k) / (2k)! * 2 ^ 128` for `k = 1, …, 11`, rounded down. -/
def cosCoef : List Nat := [6716904692351996480740172553580869540065,
  22097730704445009611200401620058197544452, 29079448028623722642175535017159165763498,
  20500189160325283305323299041318329254771, 8992389207107145746266805779675853606123,
  2689434063477973745923411328055344651363, 583376928996524113465647929239934020804,
  95961658431968144343303641385149045328, 12380439299293941931516610909639237530,
  1286210928376117309855620461420277943, 109908164843551144733617581396588923]

/-- `(1 - cos (2π f / 2 ^ 64)) * 2 ^ 128` for `f ≤ 2 ^ 62`. -/
noncomputable def versN (f : Nat) : Nat :=
  slet 0 (Nat.mul f f) fun g =>
    Nat.div (Nat.mul (hornN g cosCoef) g) 340282366920938463463374607431768211456

/-- `(1 + cos (2π f / 2 ^ 64)) * 2 ^ 128` for `f ≤ 2 ^ 63`. -/
noncomputable def halfN (f : Nat) : Nat :=
  bsel (Nat.ble f 4611686018427387904)
    (Nat.sub 680564733841876926926749214863536422912 (versN f))
    (slet 0 (Nat.sub 9223372036854775808 f) versN)

/-- `(1 + cos (2π f / 2 ^ 64)) * 2 ^ 128`. -/
noncomputable def turnN (f : Nat) : Nat :=
  slet 0 (Nat.mod f 18446744073709551616) fun f =>
    bsel (Nat.ble f 9223372036854775808) (halfN f)
      (slet 0 (Nat.sub 18446744073709551616 f) halfN)

/-- `(1 + cos (n * 1e-12)) * 2 ^ 128`. -/
noncomputable def cosN (n : Nat) : Nat :=
  slet 0 (Nat.div (Nat.mul n 3549273832978999477760892189755) 1208925819614629174706176) turnN

theorem nmul (a b : ℕ) : Nat.mul a b = a * b := rfl
theorem ndiv (a b : ℕ) : Nat.div a b = a / b := rfl
theorem nmod (a b : ℕ) : Nat.mod a b = a % b := rfl
theorem n62 : (4611686018427387904 : ℕ) = 2 ^ 62 := by norm_num
theorem n63 : (9223372036854775808 : ℕ) = 2 ^ 63 := by norm_num
theorem n64 : (18446744073709551616 : ℕ) = 2 ^ 64 := by norm_num
theorem n80 : (1208925819614629174706176 : ℕ) = 2 ^ 80 := by norm_num
theorem n128 : (340282366920938463463374607431768211456 : ℕ) = 2 ^ 128 := by norm_num
theorem n128' : (2 : ℕ) ^ 128 = 340282366920938463463374607431768211456 := by norm_num
theorem n129 : (680564733841876926926749214863536422912 : ℕ) = 2 ^ 129 := by norm_num

/-! ## The Horner scheme -/

/-- The same scheme in real numbers. -/
noncomputable def hornR (g : ℝ) : List ℝ → ℝ
  | [] => 0
  | a :: l => a - g * hornR g l

theorem hornN_cons (g a : Nat) (l : List Nat) :
    hornN g (a :: l) = a - hornN g l * g / 2 ^ 128 := by
  rw [n128']; rfl

theorem hornN_le (g : Nat) : ∀ l a, hornN g (a :: l) ≤ a := by
  intro l a; rw [hornN_cons]; exact Nat.sub_le _ _

theorem hornN_near {g : Nat} (hg : g ≤ 2 ^ 124) {η : ℝ} (hη : 0 ≤ η) (l : List Nat) (r : List ℝ)
    (h : List.Forall₂ (fun (a : ℕ) (b : ℝ) => |(a : ℝ) / 2 ^ 128 - b| ≤ η) l r)
    (hl : l.IsChain fun a b => b ≤ 16 * a) :
    |(hornN g l : ℝ) / 2 ^ 128 - hornR ((g : ℝ) / 2 ^ 128) r| ≤ 16 / 15 * (η + 1 / 2 ^ 128) := by
  induction h with
  | nil =>
    have : (hornN g [] : ℝ) = 0 := by
      change ((0 : ℕ) : ℝ) = 0; norm_num
    rw [this, hornR]
    norm_num
    positivity
  | @cons a b l r hab hlr ih =>
    have ih := ih hl.tail
    rw [hornN_cons, hornR]
    have hle : hornN g l * g / 2 ^ 128 ≤ a := by
      cases l with
      | nil => change 0 * g / 2 ^ 128 ≤ a; simp
      | cons c l =>
        have h1 := hornN_le g l c
        have h2 : c ≤ 16 * a := by
          have := hl
          simp only [List.isChain_cons_cons] at this
          exact this.1
        calc hornN g (c :: l) * g / 2 ^ 128 ≤ (16 * a) * 2 ^ 124 / 2 ^ 128 :=
              Nat.div_le_div_right (Nat.mul_le_mul (h1.trans h2) hg)
          _ = a := by omega
    rw [Nat.cast_sub hle]
    generalize hornN g l = H at *
    have f1 : ((H * g / 2 ^ 128 : ℕ) : ℝ) ≤ (H * g : ℝ) / 2 ^ 128 := by
      have := @Nat.cast_div_le ℝ _ _ _ (H * g) (2 ^ 128)
      rwa [Nat.cast_mul, Nat.cast_pow, Nat.cast_ofNat] at this
    have f2 : (H * g : ℝ) / 2 ^ 128 ≤ ((H * g / 2 ^ 128 : ℕ) : ℝ) + 1 := by
      rw [div_le_iff₀ (by positivity)]
      have := Nat.lt_div_mul_add (a := H * g) (b := 2 ^ 128) (by norm_num)
      have : (H * g : ℕ) ≤ (H * g / 2 ^ 128 + 1) * 2 ^ 128 := by omega
      exact_mod_cast this
    generalize ((H * g / 2 ^ 128 : ℕ) : ℝ) = q at *
    have hg0 : (0 : ℝ) ≤ (g : ℝ) / 2 ^ 128 := by positivity
    have hg1 : (g : ℝ) / 2 ^ 128 ≤ 1 / 16 := by
      rw [div_le_iff₀ (by positivity)]
      have : (g : ℝ) ≤ 2 ^ 124 := by exact_mod_cast hg
      linarith
    have e : (H * g : ℝ) / 2 ^ 128 / 2 ^ 128 = (g : ℝ) / 2 ^ 128 * ((H : ℝ) / 2 ^ 128) := by ring
    have f1' : q / 2 ^ 128 ≤ (g : ℝ) / 2 ^ 128 * ((H : ℝ) / 2 ^ 128) := by
      rw [← e]; gcongr
    have f2' : (g : ℝ) / 2 ^ 128 * ((H : ℝ) / 2 ^ 128) ≤ q / 2 ^ 128 + 1 / 2 ^ 128 := by
      rw [← e, ← add_div]; gcongr
    have e2 : ((a : ℝ) - q) / 2 ^ 128 = (a : ℝ) / 2 ^ 128 - q / 2 ^ 128 := by ring
    rw [e2]
    generalize (g : ℝ) / 2 ^ 128 = G at *
    generalize (H : ℝ) / 2 ^ 128 = K at *
    generalize (1 : ℝ) / 2 ^ 128 = ε at *
    generalize q / 2 ^ 128 = q' at *
    generalize (a : ℝ) / 2 ^ 128 = a' at *
    have hp : |G * (K - hornR G r)| ≤ 1 / 16 * (16 / 15 * (η + ε)) := by
      rw [abs_mul, abs_of_nonneg hg0]
      exact mul_le_mul hg1 ih (abs_nonneg _) (by norm_num)
    rw [mul_sub] at hp
    rw [abs_le] at *
    constructor <;> linarith [hp.1, hp.2, hab.1, hab.2]

/-! ## The series -/

theorem re_even (x : ℝ) (m : ℕ) :
    (((x : ℂ) * Complex.I) ^ (2 * m) / ((2 * m).factorial : ℂ)).re =
      (-1) ^ m * x ^ (2 * m) / ((2 * m).factorial : ℝ) := by
  have : (((x : ℂ) * Complex.I) ^ (2 * m) / ((2 * m).factorial : ℂ)) =
      (((-1) ^ m * x ^ (2 * m) / ((2 * m).factorial : ℝ) : ℝ) : ℂ) := by
    push_cast
    rw [mul_pow, pow_mul Complex.I, Complex.I_sq]; ring
  rw [this, Complex.ofReal_re]

theorem re_odd (x : ℝ) (m : ℕ) :
    (((x : ℂ) * Complex.I) ^ (2 * m + 1) / ((2 * m + 1).factorial : ℂ)).re = 0 := by
  have : (((x : ℂ) * Complex.I) ^ (2 * m + 1) / ((2 * m + 1).factorial : ℂ)) =
      (((-1) ^ m * x ^ (2 * m + 1) / ((2 * m + 1).factorial : ℝ) : ℝ) : ℂ) * Complex.I := by
    push_cast
    rw [mul_pow, pow_succ Complex.I, pow_mul Complex.I, Complex.I_sq]; ring
  rw [this, Complex.re_ofReal_mul, Complex.I_re, mul_zero]

theorem re_sum (x : ℝ) (n : ℕ) :
    (∑ m ∈ Finset.range (2 * n), ((x : ℂ) * Complex.I) ^ m / (m.factorial : ℂ)).re =
      ∑ k ∈ Finset.range n, (-1) ^ k * x ^ (2 * k) / ((2 * k).factorial : ℝ) := by
  induction n with
  | zero => simp
  | succ n ih =>
    rw [show 2 * (n + 1) = 2 * n + 1 + 1 by ring, Finset.sum_range_succ, Finset.sum_range_succ,
      Complex.add_re, Complex.add_re, ih, re_even, re_odd, Finset.sum_range_succ, add_zero]

theorem cos_taylor {x : ℝ} (h0 : 0 ≤ x) (h1 : x ≤ 1.5708) :
    |cos x - ∑ k ∈ Finset.range 12, (-1) ^ k * x ^ (2 * k) / ((2 * k).factorial : ℝ)| ≤ 2e-19 := by
  have hn : ‖(x : ℂ) * Complex.I‖ = x := by
    rw [norm_mul, Complex.norm_I, mul_one, Complex.norm_real, Real.norm_of_nonneg h0]
  have h := Complex.exp_bound' (x := (x : ℂ) * Complex.I) (n := 24) (by
    rw [hn]; norm_num; norm_num at h1; linarith)
  rw [hn] at h
  have h2 := (Complex.abs_re_le_norm _).trans h
  rw [Complex.sub_re, Complex.exp_ofReal_mul_I_re, re_sum x 12] at h2
  refine h2.trans ?_
  have : x ^ 24 ≤ 1.5708 ^ 24 := pow_le_pow_left₀ h0 h1 24
  have hf : ((24).factorial : ℝ) = 620448401733239439360000 := by norm_num [Nat.factorial]
  rw [hf]
  calc x ^ 24 / 620448401733239439360000 * 2 ≤ 1.5708 ^ 24 / 620448401733239439360000 * 2 := by gcongr
    _ ≤ 2e-19 := by norm_num

/-- The coefficients of the cosine of a fraction of a turn. -/
noncomputable def turnCoef (k : ℕ) : ℝ := (2 * π) ^ (2 * k) / ((2 * k).factorial : ℝ)

theorem vers_series {φ : ℝ} (h0 : 0 ≤ φ) (h1 : φ ≤ 1 / 4) :
    |1 - cos (2 * π * φ) - φ ^ 2 * hornR (φ ^ 2) [turnCoef 1, turnCoef 2, turnCoef 3, turnCoef 4,
      turnCoef 5, turnCoef 6, turnCoef 7, turnCoef 8, turnCoef 9, turnCoef 10, turnCoef 11]|
      ≤ 2e-19 := by
  have hp := pi_lt_d6
  have p0 := pi_pos
  have h := cos_taylor (x := 2 * π * φ) (by positivity) (by
    have : 2 * π * φ ≤ 2 * π * (1 / 4) := by gcongr
    norm_num at hp ⊢; linarith)
  rw [← abs_neg] at h
  refine le_trans (le_of_eq ?_) h
  congr 1
  simp only [Finset.sum_range_succ, Finset.sum_range_zero, hornR, turnCoef, Nat.factorial]
  push_cast
  ring

theorem pow_near {lo hi : ℝ} (h0 : 0 ≤ lo) (h1 : lo ≤ π) (h2 : π ≤ hi) (n : ℕ) :
    lo ^ n ≤ π ^ n ∧ π ^ n ≤ hi ^ n :=
  ⟨pow_le_pow_left₀ h0 h1 n, pow_le_pow_left₀ pi_pos.le h2 n⟩

theorem cosCoef_near : List.Forall₂ (fun (a : ℕ) (b : ℝ) => |(a : ℝ) / 2 ^ 128 - b| ≤ 1e-17) cosCoef
    [turnCoef 1, turnCoef 2, turnCoef 3, turnCoef 4, turnCoef 5, turnCoef 6, turnCoef 7,
      turnCoef 8, turnCoef 9, turnCoef 10, turnCoef 11] := by
  have h1 := pi_gt_d20
  have h2 := pi_lt_d20
  have key (a k : ℕ) (c : ℝ) (hc : c = 2 ^ (2 * k) / ((2 * k).factorial : ℝ)) (hc0 : 0 ≤ c)
      (hu : (a : ℝ) / 2 ^ 128 - c * 3.14159265358979323846 ^ (2 * k) ≤ 1e-17)
      (hl : -1e-17 ≤ (a : ℝ) / 2 ^ 128 - c * 3.14159265358979323847 ^ (2 * k)) :
      |(a : ℝ) / 2 ^ 128 - turnCoef k| ≤ 1e-17 := by
    have e : turnCoef k = c * π ^ (2 * k) := by
      rw [turnCoef, mul_pow, hc]; ring
    obtain ⟨p1, p2⟩ := pow_near (by norm_num) h1.le h2.le (2 * k)
    have p1 := mul_le_mul_of_nonneg_left p1 hc0
    have p2 := mul_le_mul_of_nonneg_left p2 hc0
    rw [e, abs_le]
    constructor <;> linarith
  unfold cosCoef
  refine .cons (key _ 1 _ rfl (by positivity) ?_ ?_) (.cons (key _ 2 _ rfl (by positivity) ?_ ?_)
    (.cons (key _ 3 _ rfl (by positivity) ?_ ?_) (.cons (key _ 4 _ rfl (by positivity) ?_ ?_)
    (.cons (key _ 5 _ rfl (by positivity) ?_ ?_) (.cons (key _ 6 _ rfl (by positivity) ?_ ?_)
    (.cons (key _ 7 _ rfl (by positivity) ?_ ?_) (.cons (key _ 8 _ rfl (by positivity) ?_ ?_)
    (.cons (key _ 9 _ rfl (by positivity) ?_ ?_) (.cons (key _ 10 _ rfl (by positivity) ?_ ?_)
    (.cons (key _ 11 _ rfl (by positivity) ?_ ?_) .nil)))))))))) <;> norm_num [Nat.factorial]

theorem cosCoef_chain : cosCoef.IsChain fun a b => b ≤ 16 * a := by
  unfold cosCoef
  repeat' first | exact List.isChain_singleton _ | refine List.isChain_cons_cons.2 ⟨by norm_num, ?_⟩

/-! ## The cosine -/

theorem div_near (a b : ℕ) (hb : 0 < b) :
    ((a / b : ℕ) : ℝ) ≤ (a : ℝ) / b ∧ (a : ℝ) / b ≤ ((a / b : ℕ) : ℝ) + 1 := by
  refine ⟨Nat.cast_div_le, ?_⟩
  rw [div_le_iff₀ (by exact_mod_cast hb)]
  have := Nat.lt_div_mul_add (a := a) (b := b) hb
  have : a ≤ (a / b + 1) * b := by rw [add_mul, one_mul]; omega
  exact_mod_cast this

theorem versN_near {f : ℕ} (hf : f ≤ 2 ^ 62) :
    |(versN f : ℝ) / 2 ^ 128 - (1 - cos (2 * π * (f / 2 ^ 64)))| ≤ 2e-18 := by
  have e : versN f = hornN (f * f) cosCoef * (f * f) / 2 ^ 128 := by
    rw [versN, slet_eq, nmul, nmul, ndiv, n128]
  have hff : f * f ≤ 2 ^ 124 := (Nat.mul_le_mul hf hf).trans (by norm_num)
  have hn := hornN_near hff (by norm_num) _ _ cosCoef_near cosCoef_chain
  have hf' : (f : ℝ) ≤ 2 ^ 62 := by exact_mod_cast hf
  have hs := vers_series (φ := (f : ℝ) / 2 ^ 64) (by positivity) (by
    rw [div_le_iff₀ (by positivity)]; linarith)
  have e1 : (((f * f : ℕ) : ℝ) / 2 ^ 128) = ((f : ℝ) / 2 ^ 64) ^ 2 := by push_cast; ring
  rw [e1] at hn
  obtain ⟨d1, d2⟩ := div_near (hornN (f * f) cosCoef * (f * f)) (2 ^ 128) (by positivity)
  rw [← e, Nat.cast_mul, Nat.cast_pow, Nat.cast_ofNat] at d1 d2
  have e2 : (hornN (f * f) cosCoef : ℝ) * ((f * f : ℕ) : ℝ) / 2 ^ 128 / 2 ^ 128 =
      ((f : ℝ) / 2 ^ 64) ^ 2 * ((hornN (f * f) cosCoef : ℝ) / 2 ^ 128) := by rw [← e1]; ring
  have d1' : (versN f : ℝ) / 2 ^ 128 ≤
      ((f : ℝ) / 2 ^ 64) ^ 2 * ((hornN (f * f) cosCoef : ℝ) / 2 ^ 128) := by rw [← e2]; gcongr
  have d2' : ((f : ℝ) / 2 ^ 64) ^ 2 * ((hornN (f * f) cosCoef : ℝ) / 2 ^ 128) ≤
      (versN f : ℝ) / 2 ^ 128 + 1 / 2 ^ 128 := by rw [← e2, ← add_div]; gcongr
  have g0 : 0 ≤ ((f : ℝ) / 2 ^ 64) ^ 2 := by positivity
  have g1 : ((f : ℝ) / 2 ^ 64) ^ 2 ≤ 1 / 16 := by
    have : (f : ℝ) / 2 ^ 64 ≤ 1 / 4 := by rw [div_le_iff₀ (by positivity)]; linarith
    calc ((f : ℝ) / 2 ^ 64) ^ 2 ≤ (1 / 4) ^ 2 := pow_le_pow_left₀ (by positivity) this 2
      _ = 1 / 16 := by norm_num
  generalize ((f : ℝ) / 2 ^ 64) ^ 2 = G at *
  generalize (hornN (f * f) cosCoef : ℝ) / 2 ^ 128 = K at *
  generalize hornR G _ = R at *
  generalize (versN f : ℝ) / 2 ^ 128 = V at *
  generalize cos (2 * π * ((f : ℝ) / 2 ^ 64)) = c at *
  have hp : |G * (K - R)| ≤ 1 / 16 * (16 / 15 * (1e-17 + 1 / 2 ^ 128)) := by
    rw [abs_mul, abs_of_nonneg g0]
    exact mul_le_mul g1 hn (abs_nonneg _) (by norm_num)
  rw [mul_sub] at hp
  rw [abs_le] at *
  norm_num at hp hs d2' ⊢
  constructor <;> linarith [hp.1, hp.2, hs.1, hs.2]

theorem versN_le {f : ℕ} (hf : f ≤ 2 ^ 62) : versN f ≤ 2 ^ 129 := by
  have e : versN f = hornN (f * f) cosCoef * (f * f) / 2 ^ 128 := by
    rw [versN, slet_eq, nmul, nmul, ndiv, n128]
  have hff : f * f ≤ 2 ^ 124 := (Nat.mul_le_mul hf hf).trans (by norm_num)
  have : hornN (f * f) cosCoef ≤ 6716904692351996480740172553580869540065 := hornN_le _ _ _
  rw [e]
  calc hornN (f * f) cosCoef * (f * f) / 2 ^ 128
      ≤ 6716904692351996480740172553580869540065 * 2 ^ 124 / 2 ^ 128 :=
        Nat.div_le_div_right (Nat.mul_le_mul this hff)
    _ ≤ 2 ^ 129 := by norm_num

theorem halfN_near {f : ℕ} (hf : f ≤ 2 ^ 63) :
    |(halfN f : ℝ) / 2 ^ 128 - (1 + cos (2 * π * (f / 2 ^ 64)))| ≤ 2e-18 := by
  have e : halfN f = if Nat.ble f (2 ^ 62) = true then 2 ^ 129 - versN f else versN (2 ^ 63 - f) := by
    rw [halfN, bsel_eq, slet_eq, Nat.sub_eq, Nat.sub_eq, n62, n63, n129]
  rw [e]
  split_ifs with h
  · have h := Nat.le_of_ble_eq_true h
    have h1 := versN_near h
    rw [Nat.cast_sub (versN_le h), Nat.cast_pow, Nat.cast_ofNat, sub_div]
    generalize (versN f : ℝ) / 2 ^ 128 = V at *
    rw [abs_le] at *
    norm_num at h1 ⊢
    constructor <;> linarith [h1.1, h1.2]
  · have h : ¬ f ≤ 2 ^ 62 := fun h' => h (Nat.ble_eq_true_of_le h')
    have h1 := versN_near (f := 2 ^ 63 - f) (by omega)
    have ec : cos (2 * π * (((2 ^ 63 - f : ℕ) : ℝ) / 2 ^ 64)) = -cos (2 * π * (f / 2 ^ 64)) := by
      rw [← cos_pi_sub]
      congr 1
      rw [Nat.cast_sub hf, Nat.cast_pow, Nat.cast_ofNat]
      ring
    rw [ec] at h1
    have : (1 : ℝ) - -cos (2 * π * (f / 2 ^ 64)) = 1 + cos (2 * π * (f / 2 ^ 64)) := by ring
    rwa [this] at h1

theorem turnN_near (f : ℕ) :
    |(turnN f : ℝ) / 2 ^ 128 - (1 + cos (2 * π * (f / 2 ^ 64)))| ≤ 2e-18 := by
  have e : turnN f = if Nat.ble (f % 2 ^ 64) (2 ^ 63) = true then halfN (f % 2 ^ 64)
      else halfN (2 ^ 64 - f % 2 ^ 64) := by
    rw [turnN, slet_eq, bsel_eq, slet_eq, nmod, Nat.sub_eq, n63, n64]
  have hm : f % 2 ^ 64 < 2 ^ 64 := Nat.mod_lt _ (by norm_num)
  have ef : 2 * π * (f / 2 ^ 64) = 2 * π * (((f % 2 ^ 64 : ℕ) : ℝ) / 2 ^ 64) +
      ((f / 2 ^ 64 : ℕ) : ℝ) * (2 * π) := by
    have h1 : (f : ℝ) = ((f % 2 ^ 64 : ℕ) : ℝ) + 2 ^ 64 * ((f / 2 ^ 64 : ℕ) : ℝ) := by
      have := Nat.mod_add_div f (2 ^ 64)
      have h2 := congrArg (fun n : ℕ => (n : ℝ)) this
      simp only [Nat.cast_add, Nat.cast_mul, Nat.cast_pow, Nat.cast_ofNat] at h2
      exact h2.symm
    generalize ((f % 2 ^ 64 : ℕ) : ℝ) = r at *
    generalize ((f / 2 ^ 64 : ℕ) : ℝ) = q at *
    rw [h1]
    field_simp
  rw [ef, cos_add_nat_mul_two_pi, e]
  generalize f % 2 ^ 64 = r at *
  split_ifs with h
  · exact halfN_near (Nat.le_of_ble_eq_true h)
  · have h : ¬ r ≤ 2 ^ 63 := fun h' => h (Nat.ble_eq_true_of_le h')
    have h1 := halfN_near (f := 2 ^ 64 - r) (by omega)
    have ec : cos (2 * π * (((2 ^ 64 - r : ℕ) : ℝ) / 2 ^ 64)) = cos (2 * π * (r / 2 ^ 64)) := by
      rw [← cos_two_pi_sub]
      congr 1
      rw [Nat.cast_sub hm.le, Nat.cast_pow, Nat.cast_ofNat]
      field_simp
      ring
    rwa [ec] at h1

/-- `cosN` is the cosine. -/
theorem cosN_near (n : ℕ) :
    |(cosN n : ℝ) / 2 ^ 128 - (1 + cos ((n : ℝ) * 1e-12))| ≤ 3e-18 + 1e-32 * (n : ℝ) := by
  have e : cosN n = turnN (n * 3549273832978999477760892189755 / 2 ^ 80) := by
    rw [cosN, slet_eq, nmul, ndiv, n80]
  have h := turnN_near (n * 3549273832978999477760892189755 / 2 ^ 80)
  rw [← e] at h
  obtain ⟨d1, d2⟩ := div_near (n * 3549273832978999477760892189755) (2 ^ 80) (by positivity)
  rw [Nat.cast_mul, Nat.cast_ofNat, Nat.cast_pow, Nat.cast_ofNat] at d1 d2
  generalize ((n * 3549273832978999477760892189755 / 2 ^ 80 : ℕ) : ℝ) = F at *
  generalize (cosN n : ℝ) / 2 ^ 128 = V at *
  have hn : (0 : ℝ) ≤ n := Nat.cast_nonneg n
  generalize (n : ℝ) = n at *
  have h1 := pi_gt_d20
  have h2 := pi_lt_d20
  have hd : |2 * π * (F / 2 ^ 64) - n * 1e-12| ≤ 4e-19 + 1e-32 * n := by
    have a1 : 2 * π * (F / 2 ^ 64) ≤
        2 * π * (n * 3549273832978999477760892189755 / 2 ^ 80 / 2 ^ 64) := by
      have := pi_pos; gcongr
    have a2 : 2 * π * (n * 3549273832978999477760892189755 / 2 ^ 80 / 2 ^ 64) ≤
        2 * π * ((F + 1) / 2 ^ 64) := by
      have := pi_pos; gcongr
    have b1 : π * n ≤ 3.14159265358979323847 * n := by gcongr
    have b2 : 3.14159265358979323846 * n ≤ π * n := by gcongr
    have a2' : 2 * π * ((F + 1) / 2 ^ 64) = 2 * π * (F / 2 ^ 64) + 2 * π / 2 ^ 64 := by ring
    have a0 : 2 * π * (n * 3549273832978999477760892189755 / 2 ^ 80 / 2 ^ 64) =
      π * n * (2 * 3549273832978999477760892189755 / 2 ^ 144) := by ring
    rw [a2'] at a2
    rw [a0] at a1 a2
    generalize π * n = q at *
    generalize 2 * π * (F / 2 ^ 64) = z at *
    rw [abs_le]
    norm_num at *
    constructor <;> linarith
  have hc : |cos (2 * π * (F / 2 ^ 64)) - cos (n * 1e-12)| ≤ |2 * π * (F / 2 ^ 64) - n * 1e-12| :=
    abs_cos_sub_cos_le _ _
  have hd := hc.trans hd
  rw [abs_le] at *
  norm_num at *
  constructor <;> linarith [h.1, h.2, hd.1, hd.2]

end Verif

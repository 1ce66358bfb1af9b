import Verif.Lemmas.CosNat
import Mathlib.Analysis.SpecialFunctions.Trigonometric.Basic
import Mathlib.Analysis.Complex.Trigonometric
import Mathlib.Algebra.BigOperators.Intervals

/-!
# Waves at equally spaced times, packed into one natural number

`a cos (φ + j δ)` for `j = 0, …, 2 ^ n - 1` is computed in `n` doublings: the values already there
are rotated by a power of two of the step.  All the values are held in one natural number, 496 bits
for each, the last time in the lowest position, so that one operation of the kernel acts on all of
them at once.
-/

namespace Verif
open Real Finset

/-! ## Definitions evaluated by the kernel -/

/-- Real part of the square of the rotation. -/
def sqC (C S : ℕ) : ℕ :=
  Nat.shiftRight (Nat.sub (Nat.add (Nat.add (Nat.mul C C) (Nat.shiftLeft S 38)) 9444732965739290427392)
    (Nat.add (Nat.mul S S) (Nat.shiftLeft C 38))) 36

/-- Imaginary part of the square of the rotation. -/
def sqS (C S : ℕ) : ℕ :=
  Nat.shiftRight (Nat.sub (Nat.add (Nat.shiftLeft (Nat.mul C S) 1) 47223664828696452136960)
    (Nat.shiftLeft (Nat.add C S) 38)) 36

/-- Real part of the rotated values. -/
def rotX (OJ C S X Y mX mY : ℕ) : ℕ :=
  Nat.sub (Nat.add (Nat.add (Nat.mul C X) mY) (Nat.mul (Nat.sub (Nat.add 274877906944 S) C) OJ))
    (Nat.add mX (Nat.mul S Y))

/-- Imaginary part of the rotated values. -/
def rotY (OJ C S X Y mX mY : ℕ) : ℕ :=
  Nat.sub (Nat.add (Nat.add (Nat.mul S X) (Nat.mul C Y))
    (Nat.mul (Nat.sub 549755813888 (Nat.add S C)) OJ)) (Nat.add mX mY)

/-- The old values above the rotated ones. -/
def joinN (OJ3 sh X X2 : ℕ) : ℕ :=
  Nat.add (Nat.shiftLeft (Nat.add (Nat.shiftLeft X 36) OJ3) sh) X2

/-- The doublings.  A level is `O J`, `3 * 2 ^ 36 * O J` and the number of bits, where `O` is the
offset of each value and `J` has a one in each position. -/
noncomputable def laneRow (lv : List (ℕ × ℕ × ℕ)) : ℕ → ℕ → ℕ → ℕ → (ℕ → ℕ → Bool) → Bool :=
  List.rec (motive := fun _ => ℕ → ℕ → ℕ → ℕ → (ℕ → ℕ → Bool) → Bool)
    (fun _ _ X Y K => K X Y)
    (fun l _ ih C S X Y K =>
      slet false (Nat.shiftLeft X 37) fun mX =>
      slet false (Nat.shiftLeft Y 37) fun mY =>
      slet false (rotX l.1 C S X Y mX mY) fun X2 =>
      slet false (rotY l.1 C S X Y mX mY) fun Y2 =>
      slet false (joinN l.2.1 l.2.2 X X2) fun X' =>
      slet false (joinN l.2.1 l.2.2 Y Y2) fun Y' =>
      slet false (sqC C S) fun C' =>
      slet false (sqS C S) fun S' =>
      ih C' S' X' Y' K) lv

/-- A wave: amplitude, phase and step, the angles as fractions of a turn of `2 ^ 64`. -/
noncomputable def waveN (lv : List (ℕ × ℕ × ℕ)) (a ph de : ℕ) (K : ℕ → ℕ → Bool) : Bool :=
  slet false (Nat.add (Nat.shiftRight (turnN de) 92) 68719476736) fun C =>
  slet false (Nat.add (Nat.shiftRight (turnN (Nat.add de 13835058055282163712)) 92) 68719476736)
    fun S =>
  slet false (Nat.sub 1180591620717411303424 (Nat.shiftLeft a 36)) fun o =>
  slet false (Nat.add (Nat.shiftRight (Nat.mul a (turnN ph)) 92) o) fun X =>
  slet false (Nat.add (Nat.shiftRight (Nat.mul a (turnN (Nat.add ph 13835058055282163712))) 92) o)
    fun Y =>
  laneRow lv C S X Y K

/-- The levels. -/
noncomputable def withLv (n : ℕ) : ℕ → ℕ → ℕ → (List (ℕ × ℕ × ℕ) → Bool) → Bool :=
  Nat.rec (motive := fun _ => ℕ → ℕ → ℕ → (List (ℕ × ℕ × ℕ) → Bool) → Bool)
    (fun _ _ _ K => K [])
    (fun _ ih J sh O K =>
      slet false (Nat.mul O J) fun OJ => slet false (Nat.mul 206158430208 OJ) fun OJ3 =>
      slet false (Nat.add J (Nat.shiftLeft J sh)) fun J' => slet false (Nat.add sh sh) fun sh' =>
      slet false (Nat.shiftLeft O 38) fun O' =>
      ih J' sh' O' fun l => K ((OJ, OJ3, sh) :: l)) n

/-! ## Packed numbers -/

/-- `X` holds the values `x p + O` for `p < n`. -/
def Packs (n : ℕ) (O : ℤ) (x : ℕ → ℤ) (X : ℕ) : Prop :=
  (X : ℤ) = ∑ p ∈ range n, (x p + O) * 2 ^ (496 * p)

theorem nshl (a b : ℕ) : Nat.shiftLeft a b = a * 2 ^ b := Nat.shiftLeft_eq a b
theorem nshr (a b : ℕ) : Nat.shiftRight a b = a / 2 ^ b := Nat.shiftRight_eq_div_pow a b
theorem nadd (a b : ℕ) : Nat.add a b = a + b := rfl
theorem nsub (a b : ℕ) : Nat.sub a b = a - b := rfl
theorem n36 : (68719476736 : ℕ) = 2 ^ 36 := by norm_num
theorem n38 : (274877906944 : ℕ) = 2 ^ 38 := by norm_num
theorem n39 : (549755813888 : ℕ) = 2 ^ 39 := by norm_num
theorem n70 : (1180591620717411303424 : ℕ) = 2 ^ 70 := by norm_num
theorem n73 : (9444732965739290427392 : ℕ) = 2 ^ 73 := by norm_num
theorem n73' : (47223664828696452136960 : ℕ) = 5 * 2 ^ 73 := by norm_num
theorem n336 : (206158430208 : ℕ) = 3 * 2 ^ 36 := by norm_num
theorem n3q : (13835058055282163712 : ℕ) = 3 * 2 ^ 62 := by norm_num

theorem rotX_eq (OJ C S X Y : ℕ) : rotX OJ C S X Y (Nat.shiftLeft X 37) (Nat.shiftLeft Y 37) =
    C * X + Y * 2 ^ 37 + (2 ^ 38 + S - C) * OJ - (X * 2 ^ 37 + S * Y) := by
  rw [rotX, nshl, nshl, n38, nsub, nsub, nmul, nmul, nmul, nadd, nadd, nadd, nadd]

theorem rotY_eq (OJ C S X Y : ℕ) : rotY OJ C S X Y (Nat.shiftLeft X 37) (Nat.shiftLeft Y 37) =
    S * X + C * Y + (2 ^ 39 - (S + C)) * OJ - (X * 2 ^ 37 + Y * 2 ^ 37) := by
  rw [rotY, nshl, nshl, n39, nsub, nsub, nmul, nmul, nmul, nadd, nadd, nadd, nadd]

theorem joinN_eq (OJ3 sh X X2 : ℕ) : joinN OJ3 sh X X2 = (X * 2 ^ 36 + OJ3) * 2 ^ sh + X2 := by
  rw [joinN, nshl, nshl, nadd, nadd]

theorem sqC_eq (C S : ℕ) :
    sqC C S = (C * C + S * 2 ^ 38 + 2 ^ 73 - (S * S + C * 2 ^ 38)) / 2 ^ 36 := by
  rw [sqC, nshr, nshl, nshl, n73, nsub, nmul, nmul, nadd, nadd, nadd]

theorem sqS_eq (C S : ℕ) :
    sqS C S = (C * S * 2 + 5 * 2 ^ 73 - (C + S) * 2 ^ 38) / 2 ^ 36 := by
  rw [sqS, nshr, nshl, nshl, n73', pow_one, nsub, nmul, nadd, nadd]

theorem laneRow_nil (C S X Y : ℕ) (K : ℕ → ℕ → Bool) : laneRow [] C S X Y K = K X Y := rfl

theorem laneRow_cons (l : ℕ × ℕ × ℕ) (lv : List (ℕ × ℕ × ℕ)) (C S X Y : ℕ) (K : ℕ → ℕ → Bool) :
    laneRow (l :: lv) C S X Y K = laneRow lv (sqC C S) (sqS C S)
      (joinN l.2.1 l.2.2 X (rotX l.1 C S X Y (Nat.shiftLeft X 37) (Nat.shiftLeft Y 37)))
      (joinN l.2.1 l.2.2 Y (rotY l.1 C S X Y (Nat.shiftLeft X 37) (Nat.shiftLeft Y 37))) K := by
  have e : laneRow (l :: lv) C S X Y K =
      slet false (Nat.shiftLeft X 37) fun mX =>
      slet false (Nat.shiftLeft Y 37) fun mY =>
      slet false (rotX l.1 C S X Y mX mY) fun X2 =>
      slet false (rotY l.1 C S X Y mX mY) fun Y2 =>
      slet false (joinN l.2.1 l.2.2 X X2) fun X' =>
      slet false (joinN l.2.1 l.2.2 Y Y2) fun Y' =>
      slet false (sqC C S) fun C' =>
      slet false (sqS C S) fun S' =>
      laneRow lv C' S' X' Y' K := rfl
  rw [e, slet_eq, slet_eq, slet_eq, slet_eq, slet_eq, slet_eq, slet_eq, slet_eq]

/-! ## One doubling -/

theorem packs_nonneg {n : ℕ} {O : ℤ} {x : ℕ → ℤ} (h : ∀ p < n, |x p| ≤ O) :
    0 ≤ ∑ p ∈ range n, (x p + O) * 2 ^ (496 * p) := by
  refine sum_nonneg fun p hp => mul_nonneg ?_ (by positivity)
  have := (abs_le.mp (h p (mem_range.mp hp))).1
  linarith

theorem packs_rotX {n : ℕ} {O : ℤ} {x y : ℕ → ℤ} {X Y OJ C S : ℕ} (hX : Packs n O x X)
    (hY : Packs n O y Y) (hJ : (OJ : ℤ) = ∑ p ∈ range n, O * 2 ^ (496 * p)) (hC : C ≤ 2 ^ 38)
    (hb : ∀ p < n, |((C : ℤ) - 2 ^ 37) * x p - ((S : ℤ) - 2 ^ 37) * y p| ≤ 2 ^ 38 * O) :
    Packs n (2 ^ 38 * O) (fun p => ((C : ℤ) - 2 ^ 37) * x p - ((S : ℤ) - 2 ^ 37) * y p)
      (C * X + Y * 2 ^ 37 + (2 ^ 38 + S - C) * OJ - (X * 2 ^ 37 + S * Y)) := by
  have e : (C : ℤ) * X + Y * 2 ^ 37 + (2 ^ 38 + S - C) * OJ - (X * 2 ^ 37 + S * Y) =
      ∑ p ∈ range n, (((C : ℤ) - 2 ^ 37) * x p - ((S : ℤ) - 2 ^ 37) * y p + 2 ^ 38 * O) *
        2 ^ (496 * p) := by
    unfold Packs at hX hY
    rw [hX, hY, hJ, mul_sum, sum_mul, mul_sum, sum_mul, mul_sum, ← sum_add_distrib,
      ← sum_add_distrib, ← sum_add_distrib, ← sum_sub_distrib]
    exact sum_congr rfl fun p _ => by ring
  have n0 := packs_nonneg hb
  rw [← e] at n0
  unfold Packs
  rw [← e]
  have hC' : C ≤ 2 ^ 38 + S := by omega
  have hle : X * 2 ^ 37 + S * Y ≤ C * X + Y * 2 ^ 37 + (2 ^ 38 + S - C) * OJ := by
    zify [hC']; linarith
  have ec := Nat.cast_sub (R := ℤ) hC'
  rw [Nat.cast_sub hle, Nat.cast_add, Nat.cast_mul (2 ^ 38 + S - C), ec]
  push_cast
  ring

theorem packs_rotY {n : ℕ} {O : ℤ} {x y : ℕ → ℤ} {X Y OJ C S : ℕ} (hX : Packs n O x X)
    (hY : Packs n O y Y) (hJ : (OJ : ℤ) = ∑ p ∈ range n, O * 2 ^ (496 * p)) (hC : C ≤ 2 ^ 38)
    (hS : S ≤ 2 ^ 38)
    (hb : ∀ p < n, |((S : ℤ) - 2 ^ 37) * x p + ((C : ℤ) - 2 ^ 37) * y p| ≤ 2 ^ 38 * O) :
    Packs n (2 ^ 38 * O) (fun p => ((S : ℤ) - 2 ^ 37) * x p + ((C : ℤ) - 2 ^ 37) * y p)
      (S * X + C * Y + (2 ^ 39 - (S + C)) * OJ - (X * 2 ^ 37 + Y * 2 ^ 37)) := by
  have e : (S : ℤ) * X + C * Y + (2 ^ 39 - (S + C)) * OJ - (X * 2 ^ 37 + Y * 2 ^ 37) =
      ∑ p ∈ range n, (((S : ℤ) - 2 ^ 37) * x p + ((C : ℤ) - 2 ^ 37) * y p + 2 ^ 38 * O) *
        2 ^ (496 * p) := by
    unfold Packs at hX hY
    rw [hX, hY, hJ, mul_sum, mul_sum, mul_sum, sum_mul, sum_mul, ← sum_add_distrib,
      ← sum_add_distrib, ← sum_add_distrib, ← sum_sub_distrib]
    exact sum_congr rfl fun p _ => by ring
  have n0 := packs_nonneg hb
  rw [← e] at n0
  unfold Packs
  rw [← e]
  have hC' : S + C ≤ 2 ^ 39 := by omega
  have hle : X * 2 ^ 37 + Y * 2 ^ 37 ≤ S * X + C * Y + (2 ^ 39 - (S + C)) * OJ := by
    zify [hC']; linarith
  have ec := Nat.cast_sub (R := ℤ) hC'
  rw [Nat.cast_sub hle, Nat.cast_add, Nat.cast_mul (2 ^ 39 - (S + C)), ec]
  push_cast
  ring

theorem packs_join {n : ℕ} {O : ℤ} {x x2 : ℕ → ℤ} {X X2 OJ3 : ℕ} (hX : Packs n O x X)
    (hX2 : Packs n (2 ^ 38 * O) x2 X2)
    (hJ : (OJ3 : ℤ) = 3 * 2 ^ 36 * ∑ p ∈ range n, O * 2 ^ (496 * p)) :
    Packs (2 * n) (2 ^ 38 * O) (fun p => if p < n then x2 p else 2 ^ 36 * x (p - n))
      ((X * 2 ^ 36 + OJ3) * 2 ^ (496 * n) + X2) := by
  unfold Packs at *
  push_cast
  rw [two_mul, sum_range_add, hX, hX2, hJ, mul_sum, sum_mul, ← sum_add_distrib, sum_mul, add_comm]
  congr 1
  · exact sum_congr rfl fun p hp => by rw [if_pos (mem_range.mp hp)]; norm_num
  · refine sum_congr rfl fun p _ => ?_
    rw [if_neg (by omega), Nat.add_sub_cancel_left, mul_add, pow_add]
    ring

/-! ## The rotations -/

theorem norm_le_of_parts {w : ℂ} {a b : ℝ} (h1 : |w.re| ≤ a) (h2 : |w.im| ≤ b) : ‖w‖ ≤ a + b :=
  (Complex.norm_le_abs_re_add_abs_im w).trans (add_le_add h1 h2)

/-- The rotation held in two natural numbers. -/
noncomputable def rotZ (C S : ℕ) : ℂ := ⟨((C : ℝ) - 2 ^ 37) / 2 ^ 36, ((S : ℝ) - 2 ^ 37) / 2 ^ 36⟩

theorem rotZ_bound {C S : ℕ} {θ η : ℝ} (h : ‖rotZ C S - Complex.exp (θ * Complex.I)‖ ≤ η)
    (hη : η ≤ 1 / 2 ^ 20) : |(C : ℝ) - 2 ^ 37| ≤ 1.01 * 2 ^ 36 ∧ |(S : ℝ) - 2 ^ 37| ≤ 1.01 * 2 ^ 36 := by
  have h1 := (Complex.abs_re_le_norm _).trans h
  have h2 := (Complex.abs_im_le_norm _).trans h
  rw [Complex.sub_re, Complex.exp_ofReal_mul_I_re, rotZ] at h1
  rw [Complex.sub_im, Complex.exp_ofReal_mul_I_im, rotZ] at h2
  dsimp only at h1 h2
  generalize (C : ℝ) - 2 ^ 37 = c at *
  generalize (S : ℝ) - 2 ^ 37 = s at *
  have c1 := abs_cos_le_one θ
  have s1 := abs_sin_le_one θ
  rw [abs_le] at h1 h2 c1 s1
  norm_num at h1 h2 hη
  constructor <;> rw [abs_le] <;> norm_num <;> constructor <;>
    linarith [h1.1, h1.2, h2.1, h2.2, c1.1, c1.2, s1.1, s1.2]

theorem rotZ_norm {C S : ℕ} {θ η : ℝ} (h : ‖rotZ C S - Complex.exp (θ * Complex.I)‖ ≤ η)
    (hη : η ≤ 1 / 2 ^ 20) : ((C : ℝ) - 2 ^ 37) ^ 2 + ((S : ℝ) - 2 ^ 37) ^ 2 ≤ 1.01 * 2 ^ 72 := by
  have h1 : ‖rotZ C S‖ ≤ 1 + 1 / 2 ^ 20 := by
    have := norm_add_le (rotZ C S - Complex.exp (θ * Complex.I)) (Complex.exp (θ * Complex.I))
    rw [sub_add_cancel, Complex.norm_exp_ofReal_mul_I] at this
    linarith
  have h2 : ‖rotZ C S‖ ^ 2 ≤ (1 + 1 / 2 ^ 20) ^ 2 := pow_le_pow_left₀ (norm_nonneg _) h1 2
  rw [Complex.sq_norm, Complex.normSq_apply, rotZ] at h2
  dsimp only at h2
  have e : ((C : ℝ) - 2 ^ 37) ^ 2 + ((S : ℝ) - 2 ^ 37) ^ 2 = 2 ^ 72 * (((C : ℝ) - 2 ^ 37) / 2 ^ 36 *
    (((C : ℝ) - 2 ^ 37) / 2 ^ 36) + ((S : ℝ) - 2 ^ 37) / 2 ^ 36 * (((S : ℝ) - 2 ^ 37) / 2 ^ 36)) := by
    ring
  rw [e]
  refine (mul_le_mul_of_nonneg_left h2 (by positivity)).trans ?_
  norm_num

theorem floor_near {a : ℕ} {r : ℝ} {k : ℕ} (h : (a : ℝ) = r) :
    |((a / 2 ^ k : ℕ) : ℝ) - r / 2 ^ k| ≤ 1 := by
  obtain ⟨h1, h2⟩ := div_near a (2 ^ k) (by positivity)
  push_cast at h1 h2
  rw [h] at h1 h2
  rw [abs_le]; constructor <;> linarith

theorem rotZ_sq {C S : ℕ} {θ η : ℝ} (h : ‖rotZ C S - Complex.exp (θ * Complex.I)‖ ≤ η)
    (hη : η ≤ 1 / 2 ^ 20) :
    ‖rotZ (sqC C S) (sqS C S) - Complex.exp ((2 * θ : ℝ) * Complex.I)‖ ≤
      2 * η + η ^ 2 + 2 / 2 ^ 36 := by
  obtain ⟨hc, hs⟩ := rotZ_bound h hη
  have hs2 : ((S : ℝ) - 2 ^ 37) ^ 2 ≤ (1.01 * 2 ^ 36) ^ 2 := sq_le_sq' (abs_le.mp hs).1 (abs_le.mp hs).2
  have e1 : ((C * C + S * 2 ^ 38 + 2 ^ 73 - (S * S + C * 2 ^ 38) : ℕ) : ℝ) =
      ((C : ℝ) - 2 ^ 37) ^ 2 - ((S : ℝ) - 2 ^ 37) ^ 2 + 2 ^ 73 := by
    have hle : S * S + C * 2 ^ 38 ≤ C * C + S * 2 ^ 38 + 2 ^ 73 := by
      have : ((S * S + C * 2 ^ 38 : ℕ) : ℝ) ≤ ((C * C + S * 2 ^ 38 + 2 ^ 73 : ℕ) : ℝ) := by
        push_cast
        have := sq_nonneg ((C : ℝ) - 2 ^ 37)
        norm_num at hs2 this ⊢
        nlinarith
      exact_mod_cast this
    rw [Nat.cast_sub hle]; push_cast; ring
  have e2 : ((C * S * 2 + 5 * 2 ^ 73 - (C + S) * 2 ^ 38 : ℕ) : ℝ) =
      2 * ((C : ℝ) - 2 ^ 37) * ((S : ℝ) - 2 ^ 37) + 2 ^ 73 := by
    have hle : (C + S) * 2 ^ 38 ≤ C * S * 2 + 5 * 2 ^ 73 := by
      have : (((C + S) * 2 ^ 38 : ℕ) : ℝ) ≤ ((C * S * 2 + 5 * 2 ^ 73 : ℕ) : ℝ) := by
        push_cast
        have := sq_nonneg (((C : ℝ) - 2 ^ 37) + ((S : ℝ) - 2 ^ 37))
        have hn := rotZ_norm h hη
        norm_num at hn this ⊢
        nlinarith
      exact_mod_cast this
    rw [Nat.cast_sub hle]; push_cast; ring
  have f1 := floor_near (k := 36) e1
  have f2 := floor_near (k := 36) e2
  rw [← sqC_eq] at f1
  rw [← sqS_eq] at f2
  have hz : ‖rotZ (sqC C S) (sqS C S) - rotZ C S ^ 2‖ ≤ 1 / 2 ^ 36 + 1 / 2 ^ 36 := by
    refine norm_le_of_parts ?_ ?_
    · rw [Complex.sub_re, pow_two, Complex.mul_re, rotZ, rotZ]
      dsimp only
      rw [show ((sqC C S : ℝ) - 2 ^ 37) / 2 ^ 36 - (((C : ℝ) - 2 ^ 37) / 2 ^ 36 *
        (((C : ℝ) - 2 ^ 37) / 2 ^ 36) - ((S : ℝ) - 2 ^ 37) / 2 ^ 36 * (((S : ℝ) - 2 ^ 37) / 2 ^ 36)) =
        ((sqC C S : ℝ) - (((C : ℝ) - 2 ^ 37) ^ 2 - ((S : ℝ) - 2 ^ 37) ^ 2 + 2 ^ 73) / 2 ^ 36) / 2 ^ 36
        by ring, abs_div, abs_of_pos (by positivity : (0 : ℝ) < 2 ^ 36)]
      gcongr
    · rw [Complex.sub_im, pow_two, Complex.mul_im, rotZ, rotZ]
      dsimp only
      rw [show ((sqS C S : ℝ) - 2 ^ 37) / 2 ^ 36 - (((C : ℝ) - 2 ^ 37) / 2 ^ 36 *
        (((S : ℝ) - 2 ^ 37) / 2 ^ 36) + ((S : ℝ) - 2 ^ 37) / 2 ^ 36 * (((C : ℝ) - 2 ^ 37) / 2 ^ 36)) =
        ((sqS C S : ℝ) - (2 * ((C : ℝ) - 2 ^ 37) * ((S : ℝ) - 2 ^ 37) + 2 ^ 73) / 2 ^ 36) / 2 ^ 36
        by ring, abs_div, abs_of_pos (by positivity : (0 : ℝ) < 2 ^ 36)]
      gcongr
  have hE : Complex.exp ((2 * θ : ℝ) * Complex.I) = Complex.exp (θ * Complex.I) ^ 2 := by
    rw [← Complex.exp_nat_mul]; congr 1; push_cast; ring
  have hE1 : ‖Complex.exp (θ * Complex.I)‖ = 1 := Complex.norm_exp_ofReal_mul_I θ
  rw [hE]
  generalize Complex.exp (θ * Complex.I) = E at *
  generalize rotZ C S = z at *
  generalize rotZ (sqC C S) (sqS C S) = z' at *
  have hz2 : ‖z ^ 2 - E ^ 2‖ ≤ η * (2 + η) := by
    rw [show z ^ 2 - E ^ 2 = (z - E) * ((z - E) + 2 * E) by ring, norm_mul]
    have : ‖z - E + 2 * E‖ ≤ η + 2 := by
      refine (norm_add_le _ _).trans ?_
      rw [norm_mul, hE1]
      have : ‖(2 : ℂ)‖ = 2 := by simp
      rw [this]; linarith
    have h0 : 0 ≤ η := (norm_nonneg _).trans h
    exact mul_le_mul h (by linarith) (norm_nonneg _) h0
  have := norm_add_le (z' - z ^ 2) (z ^ 2 - E ^ 2)
  rw [sub_add_sub_cancel] at this
  refine this.trans ((add_le_add hz hz2).trans (le_of_eq ?_))
  ring

/-! ## The doublings -/

/-- The rotation by `2 ^ k` steps. -/
def RotInv (k : ℕ) (δ : ℝ) (C S : ℕ) : Prop :=
  ‖rotZ C S - Complex.exp ((2 ^ k * δ : ℝ) * Complex.I)‖ ≤ (6 * 2 ^ k - 3) / 2 ^ 36

/-- The value in position `p` as a complex number. -/
noncomputable def laneZ (x y : ℕ → ℤ) (p : ℕ) : ℂ := ⟨(x p : ℝ), (y p : ℝ)⟩

/-- `X` and `Y` hold the wave at `2 ^ k` times. -/
def WaveInv (k a : ℕ) (φ δ : ℝ) (X Y : ℕ) : Prop :=
  ∃ x y : ℕ → ℤ, Packs (2 ^ k) (2 ^ (70 + 38 * k)) x X ∧ Packs (2 ^ k) (2 ^ (70 + 38 * k)) y Y ∧
    ∀ p < 2 ^ k, ‖laneZ x y p - 2 ^ (36 * (k + 1)) * (a * Complex.exp ((φ + (2 ^ k - 1 - p) * δ : ℝ) *
      Complex.I))‖ ≤ 2 ^ (36 * (k + 1)) * (7 * 2 ^ k * (a + 1) / 2 ^ 36)

/-- What a list of levels, from level `k` on, has to be. -/
def LvOK : ℕ → List (ℕ × ℕ × ℕ) → Prop
  | _, [] => True
  | k, l :: lv => (l.1 : ℤ) = ∑ p ∈ range (2 ^ k), 2 ^ (70 + 38 * k) * 2 ^ (496 * p) ∧
      (l.2.1 : ℤ) = 3 * 2 ^ 36 * ∑ p ∈ range (2 ^ k), 2 ^ (70 + 38 * k) * 2 ^ (496 * p) ∧
      l.2.2 = 496 * 2 ^ k ∧ LvOK (k + 1) lv

theorem rotInv_small {k : ℕ} (hk : k ≤ 10) : ((6 * 2 ^ k - 3) / 2 ^ 36 : ℝ) ≤ 1 / 2 ^ 23 := by
  have : (2 : ℝ) ^ k ≤ 2 ^ 10 := pow_le_pow_right₀ (by norm_num) hk
  rw [div_le_div_iff₀ (by norm_num) (by norm_num)]
  norm_num at this ⊢; linarith

theorem rotInv_step {k : ℕ} {δ : ℝ} {C S : ℕ} (hk : k ≤ 10) (h : RotInv k δ C S) :
    RotInv (k + 1) δ (sqC C S) (sqS C S) := by
  have hs := rotInv_small hk
  have h1 := rotZ_sq h (hs.trans (by norm_num))
  unfold RotInv
  rw [show (2 : ℝ) ^ (k + 1) * δ = 2 * (2 ^ k * δ) by ring]
  refine h1.trans ?_
  have e0 : (0 : ℝ) ≤ (6 * 2 ^ k - 3) / 2 ^ 36 := (norm_nonneg _).trans h
  have e2 : ((6 * 2 ^ k - 3) / 2 ^ 36 : ℝ) ^ 2 ≤ 1 / 2 ^ 36 := by
    refine (pow_le_pow_left₀ e0 hs 2).trans (by norm_num)
  refine (add_le_add_left (add_le_add_right e2 _) _).trans (le_of_eq ?_)
  ring

theorem laneZ_norm {k a : ℕ} {φ δ : ℝ} {x y : ℕ → ℤ} {p : ℕ} (hk : k ≤ 10)
    (h : ‖laneZ x y p - 2 ^ (36 * (k + 1)) * (a * Complex.exp ((φ + (2 ^ k - 1 - p) * δ : ℝ) *
      Complex.I))‖ ≤ 2 ^ (36 * (k + 1)) * (7 * 2 ^ k * (a + 1) / 2 ^ 36)) :
    ‖laneZ x y p‖ ≤ 2 ^ (36 * (k + 1)) * (1.001 * (a + 1)) := by
  have h2 : ‖(2 ^ (36 * (k + 1)) * (a * Complex.exp ((φ + (2 ^ k - 1 - p) * δ : ℝ) *
      Complex.I)) : ℂ)‖ = 2 ^ (36 * (k + 1)) * a := by
    rw [norm_mul, norm_mul, Complex.norm_exp_ofReal_mul_I, norm_pow, Complex.norm_natCast]
    simp
  have h3 := norm_add_le (laneZ x y p - 2 ^ (36 * (k + 1)) * (a * Complex.exp ((φ + (2 ^ k - 1 - p) * δ : ℝ) *
      Complex.I))) (2 ^ (36 * (k + 1)) * (a * Complex.exp ((φ + (2 ^ k - 1 - p) * δ : ℝ) * Complex.I)))
  rw [sub_add_cancel, h2] at h3
  refine h3.trans ((add_le_add_left h _).trans ?_)
  rw [← mul_add]
  refine mul_le_mul_of_nonneg_left ?_ (by positivity)
  have : (2 : ℝ) ^ k ≤ 2 ^ 10 := pow_le_pow_right₀ (by norm_num) hk
  have a0 : (0 : ℝ) ≤ a := Nat.cast_nonneg a
  have : (7 * 2 ^ k * (a + 1) / 2 ^ 36 : ℝ) ≤ 0.001 * (a + 1) := by
    rw [div_le_iff₀ (by norm_num)]
    have := mul_le_mul_of_nonneg_right this (by positivity : (0 : ℝ) ≤ a + 1)
    norm_num at this ⊢; linarith
  norm_num at this ⊢; linarith

theorem waveInv_step {k a : ℕ} {φ δ : ℝ} {C S X Y : ℕ} {l : ℕ × ℕ × ℕ} {lv : List (ℕ × ℕ × ℕ)}
    (hk : k ≤ 9) (ha : a ≤ 2 ^ 33) (hR : RotInv k δ C S) (hW : WaveInv k a φ δ X Y)
    (hl : LvOK k (l :: lv)) :
    WaveInv (k + 1) a φ δ
      (joinN l.2.1 l.2.2 X (rotX l.1 C S X Y (Nat.shiftLeft X 37) (Nat.shiftLeft Y 37)))
      (joinN l.2.1 l.2.2 Y (rotY l.1 C S X Y (Nat.shiftLeft X 37) (Nat.shiftLeft Y 37))) := by
  obtain ⟨x, y, pX, pY, hz⟩ := hW
  obtain ⟨l1, l2, l3, -⟩ := hl
  have hs := rotInv_small (hk.trans (by norm_num))
  obtain ⟨bC, bS⟩ := rotZ_bound hR (hs.trans (by norm_num))
  have aR : (a : ℝ) ≤ 2 ^ 33 := by exact_mod_cast ha
  have a0 : (0 : ℝ) ≤ a := Nat.cast_nonneg a
  have hC : C ≤ 2 ^ 38 := by
    have : (C : ℝ) ≤ 2 ^ 38 := by
      have h := (abs_le.mp bC).2
      have h' : (C : ℝ) ≤ 1.01 * 2 ^ 36 + 2 ^ 37 := by linarith
      exact h'.trans (by norm_num)
    exact_mod_cast this
  have hS : S ≤ 2 ^ 38 := by
    have : (S : ℝ) ≤ 2 ^ 38 := by
      have h := (abs_le.mp bS).2
      have h' : (S : ℝ) ≤ 1.01 * 2 ^ 36 + 2 ^ 37 := by linarith
      exact h'.trans (by norm_num)
    exact_mod_cast this
  have nR : ‖rotZ C S‖ ≤ 1.01 := by
    have := norm_add_le (rotZ C S - Complex.exp ((2 ^ k * δ : ℝ) * Complex.I))
      (Complex.exp ((2 ^ k * δ : ℝ) * Complex.I))
    rw [sub_add_cancel, Complex.norm_exp_ofReal_mul_I] at this
    have h' := hR.trans hs
    norm_num at h' this ⊢; linarith
  -- the rotated values
  set x2 : ℕ → ℤ := fun p => ((C : ℤ) - 2 ^ 37) * x p - ((S : ℤ) - 2 ^ 37) * y p with hx2
  set y2 : ℕ → ℤ := fun p => ((S : ℤ) - 2 ^ 37) * x p + ((C : ℤ) - 2 ^ 37) * y p with hy2
  have ez : ∀ p, laneZ x2 y2 p = 2 ^ 36 * (rotZ C S * laneZ x y p) := by
    intro p
    apply Complex.ext
    · rw [show (2 : ℂ) ^ 36 = ((2 ^ 36 : ℝ) : ℂ) by push_cast; rfl, Complex.re_ofReal_mul, Complex.mul_re]
      simp only [laneZ, rotZ, hx2]; push_cast; ring
    · rw [show (2 : ℂ) ^ 36 = ((2 ^ 36 : ℝ) : ℂ) by push_cast; rfl, Complex.im_ofReal_mul, Complex.mul_im]
      simp only [laneZ, rotZ, hy2]; push_cast; ring
  have nz : ∀ p < 2 ^ k, ‖laneZ x2 y2 p‖ ≤ 2 ^ 38 * 2 ^ (70 + 38 * k) := by
    intro p hp
    have n1 := laneZ_norm (hk.trans (by norm_num)) (hz p hp)
    rw [ez, norm_mul, norm_mul]
    have e36 : ‖(2 ^ 36 : ℂ)‖ = 2 ^ 36 := by simp
    rw [e36]
    have h1 : ‖rotZ C S‖ * ‖laneZ x y p‖ ≤ 1.01 * (2 ^ (36 * (k + 1)) * (1.001 * (a + 1))) :=
      mul_le_mul nR n1 (norm_nonneg _) (by norm_num)
    refine (mul_le_mul_of_nonneg_left h1 (by positivity)).trans ?_
    have h2 : (2 : ℝ) ^ (36 * (k + 1)) ≤ 2 ^ (38 * k + 36) :=
      pow_le_pow_right₀ (by norm_num) (by omega)
    rw [show (2 : ℝ) ^ (70 + 38 * k) = 2 ^ (38 * k + 36) * 2 ^ 34 by ring]
    have v0 : (0 : ℝ) ≤ 2 ^ (38 * k + 36) := by positivity
    generalize (2 : ℝ) ^ (36 * (k + 1)) = u at *
    generalize (2 : ℝ) ^ (38 * k + 36) = v at *
    have h3 : u * (1.001 * (a + 1)) ≤ v * (1.001 * (2 ^ 33 + 1)) :=
      mul_le_mul h2 (by linarith) (by positivity) v0
    norm_num at h3 ⊢
    linarith
  have part : ∀ {n m : ℤ} {w : ℂ} {B : ℤ}, w = ⟨(n : ℝ), (m : ℝ)⟩ → ‖w‖ ≤ (B : ℝ) → |n| ≤ B ∧ |m| ≤ B := by
    intro n m w B e h
    have h1 := (Complex.abs_re_le_norm w).trans h
    have h2 := (Complex.abs_im_le_norm w).trans h
    rw [e] at h1 h2
    dsimp only at h1 h2
    exact ⟨by exact_mod_cast h1, by exact_mod_cast h2⟩
  have bb : ∀ p < 2 ^ k, |x2 p| ≤ 2 ^ 38 * 2 ^ (70 + 38 * k) ∧ |y2 p| ≤ 2 ^ 38 * 2 ^ (70 + 38 * k) :=
    fun p hp => part rfl (by rw [Int.cast_mul, Int.cast_pow, Int.cast_pow]; exact nz p hp)
  have qX := packs_rotX pX pY l1 hC fun p hp => (bb p hp).1
  have qY := packs_rotY pX pY l1 hC hS fun p hp => (bb p hp).2
  rw [← rotX_eq] at qX
  rw [← rotY_eq] at qY
  have jX := packs_join pX qX l2
  have jY := packs_join pY qY l2
  rw [← l3, ← joinN_eq] at jX jY
  have eO : (2 : ℤ) ^ 38 * 2 ^ (70 + 38 * k) = 2 ^ (70 + 38 * (k + 1)) := by ring
  have eN : 2 * 2 ^ k = 2 ^ (k + 1) := by ring
  rw [eO, eN] at jX jY
  refine ⟨_, _, jX, jY, ?_⟩
  intro p hp
  by_cases c : p < 2 ^ k
  · have e1 : laneZ (fun p => if p < 2 ^ k then x2 p else 2 ^ 36 * x (p - 2 ^ k))
        (fun p => if p < 2 ^ k then y2 p else 2 ^ 36 * y (p - 2 ^ k)) p = laneZ x2 y2 p := by
      simp only [laneZ, if_pos c]
    have e2 : Complex.exp ((φ + (2 ^ (k + 1) - 1 - p) * δ : ℝ) * Complex.I) =
        Complex.exp ((2 ^ k * δ : ℝ) * Complex.I) *
        Complex.exp ((φ + (2 ^ k - 1 - p) * δ : ℝ) * Complex.I) := by
      rw [← Complex.exp_add]; congr 1; push_cast; ring
    have h1 := hz p c
    have n1 := laneZ_norm (hk.trans (by norm_num)) h1
    have nE : ‖Complex.exp ((2 ^ k * δ : ℝ) * Complex.I)‖ = 1 := Complex.norm_exp_ofReal_mul_I _
    unfold RotInv at hR
    rw [e1, ez, e2]
    generalize Complex.exp ((φ + (2 ^ k - 1 - p) * δ : ℝ) * Complex.I) = F at *
    generalize Complex.exp ((2 ^ k * δ : ℝ) * Complex.I) = E at *
    generalize rotZ C S = R at *
    generalize laneZ x y p = z at *
    have e3 : 2 ^ 36 * (R * z) - 2 ^ (36 * (k + 1 + 1)) * (a * (E * F)) =
        2 ^ 36 * ((R - E) * z + E * (z - 2 ^ (36 * (k + 1)) * (a * F))) := by ring
    rw [e3, norm_mul, show ‖(2 ^ 36 : ℂ)‖ = 2 ^ 36 by simp]
    have h2 := norm_add_le ((R - E) * z) (E * (z - 2 ^ (36 * (k + 1)) * (a * F)))
    rw [norm_mul, norm_mul, nE, one_mul] at h2
    have h3 : ‖R - E‖ * ‖z‖ ≤ (6 * 2 ^ k - 3) / 2 ^ 36 * (2 ^ (36 * (k + 1)) * (1.001 * (a + 1))) :=
      mul_le_mul hR n1 (norm_nonneg _) ((norm_nonneg _).trans hR)
    have h4 := h2.trans (add_le_add h3 h1)
    refine (mul_le_mul_of_nonneg_left h4 (by norm_num : (0 : ℝ) ≤ 2 ^ 36)).trans ?_
    rw [show (2 : ℝ) ^ (36 * (k + 1 + 1)) = 2 ^ 36 * 2 ^ (36 * (k + 1)) by ring,
      mul_assoc (2 ^ 36 : ℝ)]
    refine mul_le_mul_of_nonneg_left ?_ (by positivity)
    have k1 : (1 : ℝ) ≤ 2 ^ k := one_le_pow₀ (by norm_num)
    have u0 : (0 : ℝ) ≤ 2 ^ (36 * (k + 1)) := by positivity
    rw [show (6 * 2 ^ k - 3) / 2 ^ 36 * (2 ^ (36 * (k + 1)) * (1.001 * ((a : ℝ) + 1))) +
      2 ^ (36 * (k + 1)) * (7 * 2 ^ k * (a + 1) / 2 ^ 36) = 2 ^ (36 * (k + 1)) *
      (((6 * 2 ^ k - 3) * 1.001 + 7 * 2 ^ k) * (a + 1) / 2 ^ 36) by ring]
    refine mul_le_mul_of_nonneg_left ?_ u0
    rw [div_le_div_iff_of_pos_right (by norm_num : (0 : ℝ) < 2 ^ 36), pow_succ]
    refine mul_le_mul_of_nonneg_right ?_ (by positivity)
    norm_num; linarith
  · have c' := not_lt.mp c
    have hp' : p - 2 ^ k < 2 ^ k := by rw [pow_succ] at hp; omega
    have e1 : laneZ (fun p => if p < 2 ^ k then x2 p else 2 ^ 36 * x (p - 2 ^ k))
        (fun p => if p < 2 ^ k then y2 p else 2 ^ 36 * y (p - 2 ^ k)) p =
        2 ^ 36 * laneZ x y (p - 2 ^ k) := by
      apply Complex.ext
      · rw [show (2 : ℂ) ^ 36 = ((2 ^ 36 : ℝ) : ℂ) by push_cast; rfl, Complex.re_ofReal_mul]
        simp only [laneZ, if_neg c]; push_cast; ring
      · rw [show (2 : ℂ) ^ 36 = ((2 ^ 36 : ℝ) : ℂ) by push_cast; rfl, Complex.im_ofReal_mul]
        simp only [laneZ, if_neg c]; push_cast; ring
    have h1 := hz _ hp'
    rw [Nat.cast_sub c'] at h1
    have e2 : (φ + (2 ^ k - 1 - ((p : ℝ) - ((2 ^ k : ℕ) : ℝ))) * δ : ℝ) =
        φ + (2 ^ (k + 1) - 1 - p) * δ := by push_cast; ring
    rw [e2] at h1
    rw [e1]
    generalize Complex.exp ((φ + (2 ^ (k + 1) - 1 - p) * δ : ℝ) * Complex.I) = F at *
    generalize laneZ x y (p - 2 ^ k) = z at *
    rw [show 2 ^ 36 * z - 2 ^ (36 * (k + 1 + 1)) * (a * F) =
      2 ^ 36 * (z - 2 ^ (36 * (k + 1)) * (a * F)) by ring, norm_mul, show ‖(2 ^ 36 : ℂ)‖ = 2 ^ 36 by simp]
    refine (mul_le_mul_of_nonneg_left h1 (by positivity)).trans ?_
    rw [← mul_assoc, show (2 : ℝ) ^ 36 * 2 ^ (36 * (k + 1)) = 2 ^ (36 * (k + 1 + 1)) by ring]
    refine mul_le_mul_of_nonneg_left ?_ (by positivity)
    rw [div_le_div_iff_of_pos_right (by norm_num : (0 : ℝ) < 2 ^ 36), pow_succ]
    refine mul_le_mul_of_nonneg_right ?_ (by positivity)
    have k1 : (1 : ℝ) ≤ 2 ^ k := one_le_pow₀ (by norm_num)
    linarith

theorem laneRow_spec {a : ℕ} {φ δ : ℝ} (ha : a ≤ 2 ^ 33) (lv : List (ℕ × ℕ × ℕ)) : ∀ {k C S X Y : ℕ},
    k + lv.length ≤ 10 → RotInv k δ C S → WaveInv k a φ δ X Y → LvOK k lv →
    ∃ X' Y', (∀ K, laneRow lv C S X Y K = K X' Y') ∧ WaveInv (k + lv.length) a φ δ X' Y' := by
  induction lv with
  | nil => intro k C S X Y _ _ hW _; exact ⟨X, Y, fun K => laneRow_nil _ _ _ _ _, hW⟩
  | cons l lv ih =>
    intro k C S X Y hk hR hW hl
    rw [List.length_cons] at hk ⊢
    obtain ⟨X', Y', e, w⟩ := ih (k := k + 1) (by omega) (rotInv_step (by omega) hR)
      (waveInv_step (by omega) ha hR hW hl) hl.2.2.2
    refine ⟨X', Y', fun K => ?_, ?_⟩
    · rw [laneRow_cons, e]
    · rwa [show k + 1 + lv.length = k + (lv.length + 1) by ring] at w

theorem withLv_spec (n : ℕ) : ∀ {k J sh O : ℕ}, (J : ℤ) = ∑ p ∈ range (2 ^ k), 2 ^ (496 * p) →
    sh = 496 * 2 ^ k → O = 2 ^ (70 + 38 * k) →
    ∃ lv, LvOK k lv ∧ lv.length = n ∧ ∀ K, withLv n J sh O K = K lv := by
  induction n with
  | zero => intro k J sh O _ _ _; exact ⟨[], trivial, rfl, fun K => rfl⟩
  | succ n ih =>
    intro k J sh O hJ hs hO
    obtain ⟨lv, h1, h2, h3⟩ := ih (k := k + 1) (J := J + J * 2 ^ sh) (sh := sh + sh) (O := O * 2 ^ 38)
      (by
        rw [hs, show 2 ^ (k + 1) = 2 ^ k + 2 ^ k by ring, sum_range_add, ← hJ]
        push_cast
        congr 1
        rw [hJ, sum_mul]
        refine sum_congr rfl fun p _ => ?_
        rw [← pow_add]; ring_nf)
      (by rw [hs, pow_succ]; ring) (by rw [hO, ← pow_add]; congr 1)
    refine ⟨(O * J, 3 * 2 ^ 36 * (O * J), sh) :: lv, ⟨?_, ?_, hs, h1⟩, by rw [List.length_cons, h2], ?_⟩
    · push_cast; rw [hJ, hO, mul_sum]; push_cast; rfl
    · push_cast; rw [hJ, hO, mul_sum]; push_cast; rfl
    · intro K
      have e : withLv (n + 1) J sh O K =
        slet false (Nat.mul O J) fun OJ => slet false (Nat.mul 206158430208 OJ) fun OJ3 =>
        slet false (Nat.add J (Nat.shiftLeft J sh)) fun J' => slet false (Nat.add sh sh) fun sh' =>
        slet false (Nat.shiftLeft O 38) fun O' =>
        withLv n J' sh' O' fun l => K ((OJ, OJ3, sh) :: l) := rfl
      rw [e, slet_eq, slet_eq, slet_eq, slet_eq, slet_eq, nshl, nshl, nadd, nadd, nmul, nmul, n336, h3]

end Verif

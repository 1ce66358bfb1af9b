import Verif.Lemmas.LaneNat

/-!
# Sums of waves in packed numbers
-/

namespace Verif
open Real Finset

set_option exponentiation.threshold 500

/-! ## One wave -/

theorem turn_shift (f : ℕ) : cos (2 * π * (((f + 3 * 2 ^ 62 : ℕ) : ℝ) / 2 ^ 64)) =
    sin (2 * π * (f / 2 ^ 64)) := by
  have e : 2 * π * (((f + 3 * 2 ^ 62 : ℕ) : ℝ) / 2 ^ 64) = 2 * π * (f / 2 ^ 64) - π / 2 + 2 * π := by
    push_cast; ring
  rw [e, cos_add_two_pi, cos_sub_pi_div_two]

/-- The cosine in units of `2 ^ -36`, multiplied by `a`. -/
theorem turn_part (a f : ℕ) :
    |((a * turnN f / 2 ^ 92 : ℕ) : ℝ) - a * 2 ^ 36 - 2 ^ 36 * (a * cos (2 * π * (f / 2 ^ 64)))| ≤
      2 * ((a : ℝ) + 1) := by
  have h1 := turnN_near f
  have h2 := floor_near (a := a * turnN f) (k := 92) rfl
  have a0 : (0 : ℝ) ≤ a := Nat.cast_nonneg a
  have e : ((a * turnN f / 2 ^ 92 : ℕ) : ℝ) - a * 2 ^ 36 - 2 ^ 36 * (a * cos (2 * π * (f / 2 ^ 64))) =
      (((a * turnN f / 2 ^ 92 : ℕ) : ℝ) - ((a * turnN f : ℕ) : ℝ) / 2 ^ 92) +
      2 ^ 36 * a * ((turnN f : ℝ) / 2 ^ 128 - (1 + cos (2 * π * (f / 2 ^ 64)))) := by
    push_cast; ring
  rw [e]
  refine (abs_add_le _ _).trans ((add_le_add h2 (?_ : _ ≤ (a : ℝ))).trans (by linarith))
  rw [abs_mul, abs_of_nonneg (by positivity : (0 : ℝ) ≤ 2 ^ 36 * a)]
  refine (mul_le_mul_of_nonneg_left h1 (by positivity)).trans ?_
  norm_num; nlinarith

theorem waveN_spec {lv : List (ℕ × ℕ × ℕ)} (h : LvOK 0 lv) (hl : lv.length = 10) {a : ℕ}
    (ha : a ≤ 2 ^ 33) (ph de : ℕ) :
    ∃ X Y, (∀ K, waveN lv a ph de K = K X Y) ∧
      WaveInv 10 a (2 * π * (ph / 2 ^ 64)) (2 * π * (de / 2 ^ 64)) X Y := by
  have aZ : (a : ℤ) ≤ 2 ^ 33 := by exact_mod_cast ha
  have ao : a * 2 ^ 36 ≤ 2 ^ 70 := by
    calc a * 2 ^ 36 ≤ 2 ^ 33 * 2 ^ 36 := Nat.mul_le_mul_right _ ha
      _ ≤ 2 ^ 70 := by norm_num
  have hR : RotInv 0 (2 * π * (de / 2 ^ 64)) (turnN de / 2 ^ 92 + 2 ^ 36)
      (turnN (de + 3 * 2 ^ 62) / 2 ^ 92 + 2 ^ 36) := by
    have key : ∀ f : ℕ, |(((turnN f / 2 ^ 92 + 2 ^ 36 : ℕ) : ℝ) - 2 ^ 37) / 2 ^ 36 -
        cos (2 * π * (f / 2 ^ 64))| ≤ 1.5 / 2 ^ 36 := by
      intro f
      have h1 := turnN_near f
      have h2 := floor_near (a := turnN f) (k := 92) rfl
      have e : (((turnN f / 2 ^ 92 + 2 ^ 36 : ℕ) : ℝ) - 2 ^ 37) / 2 ^ 36 - cos (2 * π * (f / 2 ^ 64)) =
          (((turnN f / 2 ^ 92 : ℕ) : ℝ) - (turnN f : ℝ) / 2 ^ 92) / 2 ^ 36 +
          ((turnN f : ℝ) / 2 ^ 128 - (1 + cos (2 * π * (f / 2 ^ 64)))) := by
        push_cast; ring
      rw [e]
      refine (abs_add_le _ _).trans ?_
      rw [abs_div, abs_of_pos (by positivity : (0 : ℝ) < 2 ^ 36)]
      have : |((turnN f / 2 ^ 92 : ℕ) : ℝ) - (turnN f : ℝ) / 2 ^ 92| / 2 ^ 36 ≤ 1 / 2 ^ 36 := by gcongr
      refine (add_le_add this h1).trans (by norm_num)
    unfold RotInv
    refine (norm_le_of_parts (a := 1.5 / 2 ^ 36) (b := 1.5 / 2 ^ 36) ?_ ?_).trans (by norm_num)
    · rw [Complex.sub_re, Complex.exp_ofReal_mul_I_re, rotZ, pow_zero, one_mul]
      exact key de
    · rw [Complex.sub_im, Complex.exp_ofReal_mul_I_im, rotZ, pow_zero, one_mul, ← turn_shift]
      exact key _
  have hW : WaveInv 0 a (2 * π * (ph / 2 ^ 64)) (2 * π * (de / 2 ^ 64))
      (a * turnN ph / 2 ^ 92 + (2 ^ 70 - a * 2 ^ 36))
      (a * turnN (ph + 3 * 2 ^ 62) / 2 ^ 92 + (2 ^ 70 - a * 2 ^ 36)) := by
    refine ⟨fun _ => ((a * turnN ph / 2 ^ 92 : ℕ) : ℤ) - a * 2 ^ 36,
      fun _ => ((a * turnN (ph + 3 * 2 ^ 62) / 2 ^ 92 : ℕ) : ℤ) - a * 2 ^ 36, ?_, ?_, ?_⟩
    · unfold Packs
      rw [pow_zero, sum_range_one, mul_zero, mul_zero, pow_zero, mul_one, add_zero,
        Nat.cast_add, Nat.cast_sub ao]
      push_cast; ring
    · unfold Packs
      rw [pow_zero, sum_range_one, mul_zero, mul_zero, pow_zero, mul_one, add_zero,
        Nat.cast_add, Nat.cast_sub ao]
      push_cast; ring
    · intro p hp
      have p0 : p = 0 := by simpa using hp
      subst p0
      have h1 := turn_part a ph
      have h2 := turn_part a (ph + 3 * 2 ^ 62)
      rw [turn_shift] at h2
      have eA : (2 * π * (ph / 2 ^ 64) + (2 ^ 0 - 1 - ((0 : ℕ) : ℝ)) * (2 * π * (de / 2 ^ 64)) : ℝ) =
        2 * π * (ph / 2 ^ 64) := by push_cast; ring
      rw [eA]
      refine (norm_le_of_parts (a := 2 * ((a : ℝ) + 1)) (b := 2 * ((a : ℝ) + 1)) ?_ ?_).trans ?_
      · rw [show (2 : ℂ) ^ (36 * (0 + 1)) = ((2 ^ 36 : ℝ) : ℂ) by push_cast; norm_num, Complex.sub_re,
          Complex.re_ofReal_mul, ← Complex.ofReal_natCast, Complex.re_ofReal_mul,
          Complex.exp_ofReal_mul_I_re]
        simp only [laneZ]
        rw [Int.cast_sub, Int.cast_mul, Int.cast_pow, Int.cast_natCast, Int.cast_natCast, Int.cast_ofNat]
        exact h1
      · rw [show (2 : ℂ) ^ (36 * (0 + 1)) = ((2 ^ 36 : ℝ) : ℂ) by push_cast; norm_num, Complex.sub_im,
          Complex.im_ofReal_mul, ← Complex.ofReal_natCast, Complex.im_ofReal_mul,
          Complex.exp_ofReal_mul_I_im]
        simp only [laneZ]
        rw [Int.cast_sub, Int.cast_mul, Int.cast_pow, Int.cast_natCast, Int.cast_natCast, Int.cast_ofNat]
        exact h2
      · have a0 : (0 : ℝ) ≤ a := Nat.cast_nonneg a
        norm_num; linarith
  obtain ⟨X, Y, e, w⟩ := laneRow_spec ha lv (k := 0) (by omega) hR hW h
  rw [hl, zero_add] at w
  refine ⟨X, Y, fun K => ?_, w⟩
  have e1 : waveN lv a ph de K =
    slet false (Nat.add (Nat.shiftRight (turnN de) 92) 68719476736) fun C =>
    slet false (Nat.add (Nat.shiftRight (turnN (Nat.add de 13835058055282163712)) 92) 68719476736)
      fun S =>
    slet false (Nat.sub 1180591620717411303424 (Nat.shiftLeft a 36)) fun o =>
    slet false (Nat.add (Nat.shiftRight (Nat.mul a (turnN ph)) 92) o) fun X =>
    slet false (Nat.add (Nat.shiftRight (Nat.mul a (turnN (Nat.add ph 13835058055282163712))) 92) o)
      fun Y =>
    laneRow lv C S X Y K := rfl
  rw [e1, slet_eq, slet_eq, slet_eq, slet_eq, slet_eq, n36, n3q, n70, nshl, nshr, nshr, nshr, nshr,
    nsub, nmul, nmul, nadd, nadd, nadd, nadd, nadd, nadd, e]

/-! ## Sums -/

/-- `V` holds 1024 values, the one in position `1023 - j` near `f j`, with `c` offsets. -/
def Lanes (V c : ℕ) (f : ℕ → ℝ) (e : ℝ) : Prop :=
  ∃ v : ℕ → ℤ, (V : ℤ) = ∑ p ∈ range 1024, (v p + c * 2 ^ 450) * 2 ^ (496 * p) ∧
    ∀ p < 1024, |v p| ≤ c * 2 ^ 450 ∧ |(v p : ℝ) / 2 ^ 396 - f (1023 - p)| ≤ e

theorem lanes_zero : Lanes 0 0 (fun _ => 0) 0 :=
  ⟨fun _ => 0, by simp, by simp⟩

theorem lanes_add {V c X t : ℕ} {f g : ℕ → ℝ} {e d : ℝ} (hV : Lanes V c f e) (hX : Lanes X 1 g d) :
    Lanes (V + t * X) (c + t) (fun j => f j + t * g j) (e + t * d) := by
  obtain ⟨v, sv, bv⟩ := hV
  obtain ⟨x, sx, bx⟩ := hX
  refine ⟨fun p => v p + t * x p, ?_, ?_⟩
  · push_cast
    rw [sv, sx, mul_sum, ← sum_add_distrib]
    exact sum_congr rfl fun p _ => by push_cast; ring
  · intro p hp
    obtain ⟨v1, v2⟩ := bv p hp
    obtain ⟨x1, x2⟩ := bx p hp
    constructor
    · refine (abs_add_le _ _).trans ?_
      rw [abs_mul, Nat.abs_cast]
      push_cast
      rw [add_mul]
      refine add_le_add v1 (mul_le_mul_of_nonneg_left ?_ (Nat.cast_nonneg t))
      rwa [Nat.cast_one, one_mul] at x1
    · have e1 : ((v p + t * x p : ℤ) : ℝ) / 2 ^ 396 - (f (1023 - p) + t * g (1023 - p)) =
          ((v p : ℝ) / 2 ^ 396 - f (1023 - p)) + t * ((x p : ℝ) / 2 ^ 396 - g (1023 - p)) := by
        push_cast; ring
      rw [e1]
      refine (abs_add_le _ _).trans (add_le_add v2 ?_)
      rw [abs_mul, Nat.abs_cast]
      exact mul_le_mul_of_nonneg_left x2 (Nat.cast_nonneg t)

theorem lanes_congr {V c : ℕ} {f g : ℕ → ℝ} {e : ℝ} (h : Lanes V c f e) (hf : ∀ j < 1024, f j = g j) :
    Lanes V c g e := by
  obtain ⟨v, sv, bv⟩ := h
  refine ⟨v, sv, fun p hp => ⟨(bv p hp).1, ?_⟩⟩
  rw [← hf _ (by omega)]
  exact (bv p hp).2

theorem lanes_near {V c : ℕ} {f g : ℕ → ℝ} {e d : ℝ} (h : Lanes V c f e)
    (hf : ∀ j < 1024, |f j - g j| ≤ d) : Lanes V c g (e + d) := by
  obtain ⟨v, sv, bv⟩ := h
  refine ⟨v, sv, fun p hp => ⟨(bv p hp).1, ?_⟩⟩
  rw [show (v p : ℝ) / 2 ^ 396 - g (1023 - p) = ((v p : ℝ) / 2 ^ 396 - f (1023 - p)) +
    (f (1023 - p) - g (1023 - p)) by ring]
  exact (abs_add_le _ _).trans (add_le_add (bv p hp).2 (hf _ (by omega)))

/-- Error of one wave. -/
noncomputable def waveErr (a : ℕ) : ℝ := 1.1e-7 * (a + 1)

theorem wave_lanes {a X Y : ℕ} {φ δ : ℝ} (ha : a ≤ 2 ^ 33) (h : WaveInv 10 a φ δ X Y) :
    Lanes X 1 (fun j => a * cos (φ + j * δ)) (waveErr a) ∧
    Lanes Y 1 (fun j => a * sin (φ + j * δ)) (waveErr a) := by
  obtain ⟨x, y, pX, pY, hz⟩ := h
  have a0 : (0 : ℝ) ≤ a := Nat.cast_nonneg a
  have aR : (a : ℝ) ≤ 2 ^ 33 := by exact_mod_cast ha
  have e450 : (2 : ℤ) ^ (70 + 38 * 10) = 2 ^ 450 := by norm_num
  have e1024 : 2 ^ 10 = 1024 := by norm_num
  rw [e450, e1024] at pX pY
  have key : ∀ p < 1024, |(x p : ℝ) / 2 ^ 396 - a * cos (φ + ((1023 - p : ℕ) : ℝ) * δ)| ≤ waveErr a ∧
      |(y p : ℝ) / 2 ^ 396 - a * sin (φ + ((1023 - p : ℕ) : ℝ) * δ)| ≤ waveErr a := by
    intro p hp
    have h1 := hz p (by rw [e1024]; exact hp)
    have eA : (φ + (2 ^ 10 - 1 - (p : ℝ)) * δ : ℝ) = φ + ((1023 - p : ℕ) : ℝ) * δ := by
      rw [Nat.cast_sub (by omega)]; push_cast; ring
    rw [eA] at h1
    rw [show (36 * (10 + 1)) = 396 by norm_num, show (2 : ℂ) ^ 396 = ((2 ^ 396 : ℝ) : ℂ) by push_cast; rfl] at h1
    have b : (2 : ℝ) ^ 396 * (7 * 2 ^ 10 * (a + 1) / 2 ^ 36) ≤ 2 ^ 396 * waveErr a := by
      refine mul_le_mul_of_nonneg_left ?_ (by positivity)
      unfold waveErr
      rw [div_le_iff₀ (by norm_num)]
      norm_num; linarith
    have r := ((Complex.abs_re_le_norm _).trans h1).trans b
    have i := ((Complex.abs_im_le_norm _).trans h1).trans b
    rw [Complex.sub_re, Complex.re_ofReal_mul, ← Complex.ofReal_natCast a, Complex.re_ofReal_mul,
      Complex.exp_ofReal_mul_I_re] at r
    rw [Complex.sub_im, Complex.im_ofReal_mul, ← Complex.ofReal_natCast a, Complex.im_ofReal_mul,
      Complex.exp_ofReal_mul_I_im] at i
    simp only [laneZ] at r i
    generalize φ + ((1023 - p : ℕ) : ℝ) * δ = θ at *
    have q0 : (0 : ℝ) < 2 ^ 396 := by positivity
    generalize (2 : ℝ) ^ 396 = q at *
    constructor
    · rw [show (x p : ℝ) / q - a * cos θ = ((x p : ℝ) - q * (a * cos θ)) / q by field_simp, abs_div,
        abs_of_pos q0, div_le_iff₀ q0]
      linarith
    · rw [show (y p : ℝ) / q - a * sin θ = ((y p : ℝ) - q * (a * sin θ)) / q by field_simp, abs_div,
        abs_of_pos q0, div_le_iff₀ q0]
      linarith
  have size : ∀ (n : ℤ) (θ : ℝ), |θ| ≤ 1 → |(n : ℝ) / 2 ^ 396 - a * θ| ≤ waveErr a → |n| ≤ 2 ^ 450 := by
    intro n θ h1 h
    have h2 : |(n : ℝ) / 2 ^ 396| ≤ 2 ^ 34 := by
      have := abs_add_le ((n : ℝ) / 2 ^ 396 - a * θ) (a * θ)
      rw [sub_add_cancel, abs_mul, abs_of_nonneg a0] at this
      have h3 := mul_le_mul_of_nonneg_left h1 a0
      unfold waveErr at h
      norm_num at h ⊢
      linarith
    rw [abs_div, abs_of_pos (by positivity : (0 : ℝ) < 2 ^ 396), div_le_iff₀ (by positivity)] at h2
    have h4 : |(n : ℝ)| ≤ 2 ^ 450 := h2.trans (by rw [← pow_add]; exact pow_le_pow_right₀ (by norm_num) (by norm_num))
    exact_mod_cast h4
  refine ⟨⟨x, ?_, fun p hp => ⟨?_, (key p hp).1⟩⟩, ⟨y, ?_, fun p hp => ⟨?_, (key p hp).2⟩⟩⟩
  · rw [Nat.cast_one, one_mul]; exact pX
  · rw [Nat.cast_one, one_mul]; exact size _ _ (abs_cos_le_one _) (key p hp).1
  · rw [Nat.cast_one, one_mul]; exact pY
  · rw [Nat.cast_one, one_mul]; exact size _ _ (abs_sin_le_one _) (key p hp).2

/-! ## Rows -/

/-- The angle `A + B u` in units of `2π / 2 ^ 64 * num / den`. -/
noncomputable def ang (num den : ℕ) (A B : ℤ) (u : ℝ) : ℝ :=
  2 * π * (((A + B * u) * num / den) / 2 ^ 64)

/-- `x num / den` in turns of `2 ^ 64`. -/
noncomputable def fracN (num den : ℕ) (x : ℤ) : ℕ :=
  Int.toNat (Int.emod (Int.ediv (Int.mul x (Int.ofNat num)) (Int.ofNat den))
    (Int.ofNat 18446744073709551616))

theorem fracN_spec (num den : ℕ) (x : ℤ) (hd : 0 < den) : ∃ (k : ℤ) (η : ℝ), |η| ≤ 1 ∧
    (fracN num den x : ℝ) = (x * num / den : ℝ) - η - k * 2 ^ 64 := by
  have e : fracN num den x = ((x * num / den) % (2 ^ 64 : ℤ)).toNat := by
    have : (2 ^ 64 : ℤ) = Int.ofNat 18446744073709551616 := by norm_num
    rw [this]; rfl
  have h0 : 0 ≤ (x * num / den) % (2 ^ 64 : ℤ) := Int.emod_nonneg _ (by norm_num)
  have e2 : (fracN num den x : ℤ) = (x * num / den) - (2 ^ 64) * ((x * num / den) / (2 ^ 64)) := by
    rw [e, Int.toNat_of_nonneg h0, Int.emod_def]
  have dR : (0 : ℝ) < den := by exact_mod_cast hd
  refine ⟨(x * num / den) / (2 ^ 64), (x * num / den : ℝ) - ((x * num / den : ℤ) : ℝ), ?_, ?_⟩
  · have dz : (0 : ℤ) < den := by exact_mod_cast hd
    have l := Int.ediv_mul_le (x * num) dz.ne'
    have u := Int.lt_ediv_add_one_mul_self (x * num) dz
    generalize (x * num / den : ℤ) = q at *
    have l' : (q : ℝ) * den ≤ x * num := by exact_mod_cast l
    have u' : (x : ℝ) * num < (q + 1) * den := by exact_mod_cast u
    have e3 : (x * num / den : ℝ) - q = (x * num - q * den) / den := by field_simp
    rw [e3, abs_div, abs_of_pos dR, div_le_one dR, abs_le]
    constructor <;> linarith
  · have e3 : (fracN num den x : ℝ) = ((x * num / den : ℤ) : ℝ) - 2 ^ 64 * (((x * num / den) / (2 ^ 64) : ℤ) : ℝ) := by
      exact_mod_cast e2
    rw [e3]; ring

theorem ang_near (num den : ℕ) (hd : 0 < den) (A B U H : ℤ) {j : ℕ} (hj : j < 1024) :
    ∃ (k : ℤ) (η : ℝ), |η| ≤ 4e-16 ∧ 2 * π * ((fracN num den (A + B * U) : ℝ) / 2 ^ 64) +
      j * (2 * π * ((fracN num den (B * H) : ℝ) / 2 ^ 64)) =
      ang num den A B (U + j * H) + η + k * (2 * π) := by
  obtain ⟨k1, η1, h1, e1⟩ := fracN_spec num den (A + B * U) hd
  obtain ⟨k2, η2, h2, e2⟩ := fracN_spec num den (B * H) hd
  refine ⟨-(k1 + j * k2), -(2 * π * ((η1 + j * η2) / 2 ^ 64)), ?_, ?_⟩
  · rw [abs_neg, abs_mul, abs_div, abs_of_pos (by positivity : (0 : ℝ) < 2 * π),
      abs_of_pos (by positivity : (0 : ℝ) < 2 ^ 64)]
    have hj' : (j : ℝ) ≤ 1023 := by exact_mod_cast (by omega : j ≤ 1023)
    have h3 : |η1 + j * η2| ≤ 1024 := by
      refine (abs_add_le _ _).trans ?_
      rw [abs_mul, Nat.abs_cast]
      have := mul_le_mul hj' h2 (abs_nonneg _) (by norm_num)
      linarith
    have p := Real.pi_lt_d2
    have h4 : 2 * π * (|η1 + j * η2| / 2 ^ 64) ≤ 2 * 3.15 * (1024 / 2 ^ 64) := by gcongr
    refine h4.trans (by norm_num)
  · rw [e1, e2]
    unfold ang
    have dR : (den : ℝ) ≠ 0 := by exact_mod_cast hd.ne'
    push_cast
    field_simp
    ring

theorem cos_turn {x y η : ℝ} {k : ℤ} (h : x = y + η + k * (2 * π)) (hη : |η| ≤ 4e-16) :
    |cos x - cos y| ≤ 4e-16 ∧ |sin x - sin y| ≤ 4e-16 := by
  rw [h, Real.cos_add_int_mul_two_pi, Real.sin_add_int_mul_two_pi]
  constructor
  · have := abs_cos_sub_cos_le (y + η) y
    rw [add_sub_cancel_left] at this
    exact this.trans hη
  · have := abs_sin_sub_sin_le (y + η) y
    rw [add_sub_cancel_left] at this
    exact this.trans hη

/-- Error of one row. -/
noncomputable def rowErr (a : ℕ) : ℝ := 1.2e-7 * (a + 1)

theorem row_lanes {lv : List (ℕ × ℕ × ℕ)} (h : LvOK 0 lv) (hl : lv.length = 10) {a : ℕ}
    (ha : a ≤ 2 ^ 33) (num den : ℕ) (hd : 0 < den) (A B U H : ℤ) :
    ∃ X Y, (∀ K, waveN lv a (fracN num den (A + B * U)) (fracN num den (B * H)) K = K X Y) ∧
      Lanes X 1 (fun j => a * cos (ang num den A B (U + j * H))) (rowErr a) ∧
      Lanes Y 1 (fun j => a * sin (ang num den A B (U + j * H))) (rowErr a) := by
  obtain ⟨X, Y, e, w⟩ := waveN_spec h hl ha (fracN num den (A + B * U)) (fracN num den (B * H))
  obtain ⟨lX, lY⟩ := wave_lanes ha w
  have a0 : (0 : ℝ) ≤ a := Nat.cast_nonneg a
  have er : rowErr a = waveErr a + 1e-8 * (a + 1) := by unfold rowErr waveErr; ring
  refine ⟨X, Y, e, ?_, ?_⟩
  · rw [er]
    refine lanes_near lX fun j hj => ?_
    obtain ⟨k, η, hη, hk⟩ := ang_near num den hd A B U H hj
    rw [← mul_sub, abs_mul, abs_of_nonneg a0]
    refine (mul_le_mul_of_nonneg_left (cos_turn hk hη).1 a0).trans ?_
    norm_num; linarith
  · rw [er]
    refine lanes_near lY fun j hj => ?_
    obtain ⟨k, η, hη, hk⟩ := ang_near num den hd A B U H hj
    rw [← mul_sub, abs_mul, abs_of_nonneg a0]
    refine (mul_le_mul_of_nonneg_left (cos_turn hk hη).2 a0).trans ?_
    norm_num; linarith

/-! ## Tables -/

/-- Sums over the rows of a table: those with `thr ≤ m * amp` are added to `V` and, with a weight,
to `W`; the amplitudes of the others are added to `dr`. -/
noncomputable def foldN {α : Type} (lv : List (ℕ × ℕ × ℕ)) (thr m num den : ℕ) (U H : ℤ)
    (amp : α → ℕ) (A B : α → ℤ) (wt : α → ℕ) (l : List α) :
    ℕ → ℕ → ℕ → ℕ → ℕ → (ℕ → ℕ → ℕ → ℕ → ℕ → Bool) → Bool :=
  List.rec (motive := fun _ => ℕ → ℕ → ℕ → ℕ → ℕ → (ℕ → ℕ → ℕ → ℕ → ℕ → Bool) → Bool)
    (fun V c W cw dr K => K V c W cw dr)
    (fun r _ ih V c W cw dr K =>
      slet false (amp r) fun a =>
      bsel (Nat.ble thr (Nat.mul m a))
        (slet false (fracN num den (Int.add (A r) (Int.mul (B r) U))) fun ph =>
          slet false (fracN num den (Int.mul (B r) H)) fun de =>
          slet false (wt r) fun wt =>
          waveN lv a ph de fun X Y =>
            slet false (Nat.add V X) fun V => slet false (Nat.add c 1) fun c =>
            slet false (Nat.add W (Nat.mul wt Y)) fun W => slet false (Nat.add cw wt) fun cw =>
            ih V c W cw dr K)
        (slet false (Nat.add dr (Nat.mul m a)) fun dr => ih V c W cw dr K)) l

theorem foldN_cons {α : Type} (lv : List (ℕ × ℕ × ℕ)) (thr m num den : ℕ) (U H : ℤ)
    (amp : α → ℕ) (A B : α → ℤ) (wt : α → ℕ) (r : α) (l : List α) (V c W cw dr : ℕ)
    (K : ℕ → ℕ → ℕ → ℕ → ℕ → Bool) :
    foldN lv thr m num den U H amp A B wt (r :: l) V c W cw dr K =
      if Nat.ble thr (m * amp r) = true then
        waveN lv (amp r) (fracN num den (A r + B r * U)) (fracN num den (B r * H)) fun X Y =>
          foldN lv thr m num den U H amp A B wt l (V + X) (c + 1) (W + wt r * Y) (cw + wt r) dr K
      else foldN lv thr m num den U H amp A B wt l V c W cw (dr + m * amp r) K := by
  have e : foldN lv thr m num den U H amp A B wt (r :: l) V c W cw dr K =
      slet false (amp r) fun a =>
      bsel (Nat.ble thr (Nat.mul m a))
        (slet false (fracN num den (Int.add (A r) (Int.mul (B r) U))) fun ph =>
          slet false (fracN num den (Int.mul (B r) H)) fun de =>
          slet false (wt r) fun wt' =>
          waveN lv a ph de fun X Y =>
            slet false (Nat.add V X) fun V => slet false (Nat.add c 1) fun c =>
            slet false (Nat.add W (Nat.mul wt' Y)) fun W => slet false (Nat.add cw wt') fun cw =>
            foldN lv thr m num den U H amp A B wt l V c W cw dr K)
        (slet false (Nat.add dr (Nat.mul m a)) fun dr =>
          foldN lv thr m num den U H amp A B wt l V c W cw dr K) := rfl
  rw [e, slet_eq, bsel_eq, slet_eq, slet_eq, slet_eq, slet_eq, nmul, nadd]
  refine if_congr Iff.rfl (congrArg _ (funext fun X => funext fun Y => ?_)) rfl
  rw [slet_eq, slet_eq, slet_eq, slet_eq, nmul, nadd, nadd, nadd]

/-- The rows which are used. -/
def kept {α : Type} (thr m : ℕ) (amp : α → ℕ) (l : List α) : List α :=
  l.filter fun r => Nat.ble thr (m * amp r)

/-- The rows which are left out. -/
def left {α : Type} (thr m : ℕ) (amp : α → ℕ) (l : List α) : List α :=
  l.filter fun r => !Nat.ble thr (m * amp r)

theorem foldN_spec {α : Type} {lv : List (ℕ × ℕ × ℕ)} (h : LvOK 0 lv) (hl : lv.length = 10)
    (thr m num den : ℕ) (hd : 0 < den) (U H : ℤ) (amp : α → ℕ) (A B : α → ℤ) (wt : α → ℕ)
    (l : List α) (ha : ∀ r ∈ l, amp r ≤ 2 ^ 33) : ∀ {V c W cw dr : ℕ} {f g : ℕ → ℝ} {e d : ℝ},
    Lanes V c f e → Lanes W cw g d → ∃ V' W',
      (∀ K, foldN lv thr m num den U H amp A B wt l V c W cw dr K =
        K V' (c + (kept thr m amp l).length) W' (cw + ((kept thr m amp l).map wt).sum)
          (dr + ((left thr m amp l).map fun r => m * amp r).sum)) ∧
      Lanes V' (c + (kept thr m amp l).length)
        (fun j => f j + ((kept thr m amp l).map fun r =>
          amp r * cos (ang num den (A r) (B r) (U + j * H))).sum)
        (e + ((kept thr m amp l).map fun r => rowErr (amp r)).sum) ∧
      Lanes W' (cw + ((kept thr m amp l).map wt).sum)
        (fun j => g j + ((kept thr m amp l).map fun r =>
          wt r * (amp r * sin (ang num den (A r) (B r) (U + j * H)))).sum)
        (d + ((kept thr m amp l).map fun r => wt r * rowErr (amp r)).sum) := by
  induction l with
  | nil =>
    intro V c W cw dr f g e d hV hW
    refine ⟨V, W, fun K => ?_, ?_, ?_⟩
    · simp only [kept, left, List.filter_nil, List.map_nil, List.sum_nil, List.length_nil, add_zero]
      rfl
    · simpa [kept] using hV
    · simpa [kept] using hW
  | cons r l ih =>
    intro V c W cw dr f g e d hV hW
    have ha' : ∀ r ∈ l, amp r ≤ 2 ^ 33 := fun r hr => ha r (List.mem_cons_of_mem _ hr)
    by_cases hk : Nat.ble thr (m * amp r) = true
    · obtain ⟨X, Y, ew, lX, lY⟩ := row_lanes h hl (ha r (List.mem_cons_self)) num den hd (A r) (B r) U H
      have qV := lanes_add (t := 1) hV lX
      have qW := lanes_add (t := wt r) hW lY
      rw [one_mul] at qV
      obtain ⟨V', W', eK, rV, rW⟩ := ih ha' (dr := dr) qV qW
      have k1 : kept thr m amp (r :: l) = r :: kept thr m amp l := by
        unfold kept; rw [List.filter_cons_of_pos (p := fun r => Nat.ble thr (m * amp r)) hk]
      have k2 : left thr m amp (r :: l) = left thr m amp l := by
        unfold left; rw [List.filter_cons_of_neg (by simp [hk])]
      refine ⟨V', W', fun K => ?_, ?_, ?_⟩
      · rw [foldN_cons, if_pos hk, ew, eK, k1, k2, List.length_cons, List.map_cons, List.sum_cons,
          add_assoc, add_comm 1, add_assoc]
      · rw [k1]
        simp only [List.length_cons, List.map_cons, List.sum_cons]
        rw [show c + ((kept thr m amp l).length + 1) = c + 1 + (kept thr m amp l).length by ring]
        simp only [← add_assoc, Nat.cast_one, one_mul] at rV ⊢
        exact rV
      · rw [k1]
        simp only [List.map_cons, List.sum_cons]
        simp only [← add_assoc] at rW ⊢
        exact rW
    · obtain ⟨V', W', eK, rV, rW⟩ := ih ha' (dr := dr + m * amp r) hV hW
      have k1 : kept thr m amp (r :: l) = kept thr m amp l := by
        unfold kept; rw [List.filter_cons_of_neg (p := fun r => Nat.ble thr (m * amp r)) hk]
      have k2 : left thr m amp (r :: l) = r :: left thr m amp l := by
        unfold left; rw [List.filter_cons_of_pos (by simp [hk])]
      rw [k1, k2]
      refine ⟨V', W', fun K => ?_, rV, rW⟩
      rw [foldN_cons, if_neg hk, eK, List.map_cons, List.sum_cons, add_assoc]

/-! ## Digits -/

/-- The value in position `p` without its lowest 340 bits. -/
noncomputable def digN (V p : ℕ) : ℕ :=
  Nat.mod (Nat.shiftRight V (Nat.add (Nat.mul 496 p) 340))
    91343852333181432387730302044767688728495783936

theorem digit_of_sum (B : ℕ) (hB : 0 < B) (d : ℕ → ℕ) (n : ℕ) (hd : ∀ q < n, d q < B) {p : ℕ}
    (hp : p < n) : (∑ q ∈ range n, d q * B ^ q) / B ^ p % B = d p := by
  induction p generalizing n d with
  | zero =>
    obtain ⟨n, rfl⟩ : ∃ m, n = m + 1 := ⟨n - 1, by omega⟩
    rw [sum_range_succ', pow_zero, mul_one, Nat.div_one]
    have : ∑ q ∈ range n, d (q + 1) * B ^ (q + 1) = B * ∑ q ∈ range n, d (q + 1) * B ^ q := by
      rw [mul_sum]; exact sum_congr rfl fun q _ => by ring
    rw [this, Nat.mul_add_mod, Nat.mod_eq_of_lt (hd 0 (by omega))]
  | succ p ih =>
    obtain ⟨n, rfl⟩ : ∃ m, n = m + 1 := ⟨n - 1, by omega⟩
    rw [sum_range_succ', pow_zero, mul_one]
    have : ∑ q ∈ range n, d (q + 1) * B ^ (q + 1) = B * ∑ q ∈ range n, d (q + 1) * B ^ q := by
      rw [mul_sum]; exact sum_congr rfl fun q _ => by ring
    rw [this, pow_succ', ← Nat.div_div_eq_div_mul, Nat.mul_add_div hB,
      Nat.div_eq_of_lt (hd 0 (by omega)), add_zero]
    exact ih (fun q => d (q + 1)) n (fun q hq => hd (q + 1) (by omega)) (by omega)

theorem digN_spec {V c : ℕ} {f : ℕ → ℝ} {e : ℝ} (h : Lanes V c f e) (hc : c ≤ 2 ^ 40) {j : ℕ}
    (hj : j < 1024) :
    |((digN V (1023 - j) : ℝ) - c * 2 ^ 110) / 2 ^ 56 - f j| ≤ e + 1 / 2 ^ 56 := by
  obtain ⟨v, sv, bv⟩ := h
  have n0 : ∀ p < 1024, 0 ≤ v p + c * 2 ^ 450 := fun p hp => by
    have := (abs_le.mp (bv p hp).1).1; linarith
  set d : ℕ → ℕ := fun p => (v p + c * 2 ^ 450).toNat with hd
  have dz : ∀ p < 1024, (d p : ℤ) = v p + c * 2 ^ 450 := fun p hp => Int.toNat_of_nonneg (n0 p hp)
  have db : ∀ p < 1024, d p < 2 ^ 496 := by
    intro p hp
    have h1 := (abs_le.mp (bv p hp).1).2
    have h2 : (c : ℤ) * 2 ^ 450 ≤ 2 ^ 40 * 2 ^ 450 := by
      have : (c : ℤ) ≤ 2 ^ 40 := by exact_mod_cast hc
      exact mul_le_mul_of_nonneg_right this (by positivity)
    have h3 : (d p : ℤ) < 2 ^ 496 := by
      rw [dz p hp]
      have : (2 : ℤ) ^ 40 * 2 ^ 450 + 2 ^ 40 * 2 ^ 450 < 2 ^ 496 := by norm_num
      linarith
    exact_mod_cast h3
  have sV : V = ∑ q ∈ range 1024, d q * (2 ^ 496) ^ q := by
    have : (V : ℤ) = ((∑ q ∈ range 1024, d q * (2 ^ 496) ^ q : ℕ) : ℤ) := by
      rw [sv, Nat.cast_sum]
      refine sum_congr rfl fun p hp => ?_
      rw [← dz p (mem_range.mp hp), Nat.cast_mul, pow_mul, Nat.cast_pow, Nat.cast_pow,
        Nat.cast_ofNat]
    exact_mod_cast this
  have hp : 1023 - j < 1024 := by omega
  have dig := digit_of_sum (2 ^ 496) (by positivity) d 1024 db hp
  rw [← sV] at dig
  have en : digN V (1023 - j) = d (1023 - j) / 2 ^ 340 := by
    have n156 : (91343852333181432387730302044767688728495783936 : ℕ) = 2 ^ 156 := by norm_num
    have e1 : digN V (1023 - j) = V / 2 ^ (496 * (1023 - j) + 340) % 2 ^ 156 := by
      rw [digN, n156, nshr, nadd, nmul]; rfl
    rw [e1, ← dig, pow_add, ← Nat.div_div_eq_div_mul, pow_mul]
    rw [show (2 : ℕ) ^ 496 = 2 ^ 340 * 2 ^ 156 by rw [← pow_add]]
    rw [Nat.mod_mul_right_div_self]
  have h1 := floor_near (a := d (1023 - j)) (k := 340) rfl
  rw [← en] at h1
  have h2 := (bv _ hp).2
  rw [show 1023 - (1023 - j) = j by omega] at h2
  have dR : (d (1023 - j) : ℝ) = v (1023 - j) + c * 2 ^ 450 := by exact_mod_cast dz _ hp
  rw [dR] at h1
  generalize (digN V (1023 - j) : ℝ) = D at *
  generalize (v (1023 - j) : ℝ) = w at *
  have e3 : (D - c * 2 ^ 110) / 2 ^ 56 - f j = (w / 2 ^ 396 - f j) +
      (D - (w + c * 2 ^ 450) / 2 ^ 340) / 2 ^ 56 := by
    rw [show (2 : ℝ) ^ 450 = 2 ^ 110 * 2 ^ 340 by rw [← pow_add],
      show (2 : ℝ) ^ 396 = 2 ^ 56 * 2 ^ 340 by rw [← pow_add]]
    have : (2 : ℝ) ^ 340 ≠ 0 := by positivity
    generalize (2 : ℝ) ^ 340 = z at *
    field_simp
    ring
  rw [e3]
  refine (abs_add_le _ _).trans (add_le_add h2 ?_)
  rw [abs_div, abs_of_pos (by positivity : (0 : ℝ) < 2 ^ 56)]
  gcongr

end Verif

import Verif.Lemmas.LaneSum
import Verif.Lemmas.Poisson

/-!
# A planetary series at equally spaced times, with its derivative
-/

namespace Verif
open Real Finset

set_option exponentiation.threshold 500

/-! ## Definitions -/

/-- Weight of a row in the derivative. -/
def wtT (r : Term) : ℕ := Nat.shiftRight r.2.2 29

/-- Phase of a row in units of `1e-23`. -/
def aT (r : Term) : ℤ := Int.ofNat (Nat.mul r.2.1 1000000000000)

/-- Frequency of a row in units of `1e-11` per millennium. -/
def bT (r : Term) : ℤ := Int.ofNat r.2.2

/-- Sums of all series of a table. -/
noncomputable def tabsN (lv : List (ℕ × ℕ × ℕ)) (thr : ℕ) (U H : ℤ) (c : List (List Term)) :
    ℕ → ℕ → (List (ℕ × ℕ × ℕ × ℕ) → ℕ → Bool) → Bool :=
  List.rec (motive := fun _ => ℕ → ℕ → (List (ℕ × ℕ × ℕ × ℕ) → ℕ → Bool) → Bool)
    (fun _ dr K => K [] dr)
    (fun s _ ih m dr K =>
      foldN lv thr m 3549273832978999477760892189755 120892581961462917470617600000000000 U H
        (fun r : Term => r.1) aT bT wtT s 0 0 0 0 dr fun V cV W cW dr =>
      slet false (Nat.mul 3 m) fun m => ih m dr fun l dr => K ((V, cV, W, cW) :: l) dr) c

/-- `body x`, with `x` evaluated first. -/
noncomputable def islet (x : ℤ) (body : ℤ → Bool) : Bool :=
  Int.rec (motive := fun _ => Bool) (fun n => slet false n fun n => body (Int.ofNat n))
    (fun n => slet false n fun n => body (Int.negSucc n)) x

/-- Value in position `p` in units of `2 ^ -56`. -/
noncomputable def valN (V c p : ℕ) : ℤ :=
  Int.sub (Int.ofNat (digN V p)) (Int.ofNat (Nat.shiftLeft c 110))

/-- Horner scheme: position `p`, time `x` and its difference `D` from the time of the position, both
in `1e-17` day. -/
noncomputable def hornI (p : ℕ) (D x : ℤ) (l : List (ℕ × ℕ × ℕ × ℕ)) (K : ℤ → Bool) : Bool :=
  List.rec (motive := fun _ => (ℤ → Bool) → Bool) (fun K => K (Int.ofNat 0))
    (fun t _ ih K => ih fun h =>
      islet (valN t.1 t.2.1 p) fun v => islet (valN t.2.2.1 t.2.2.2 p) fun w =>
      islet (Int.add (Int.sub v (Int.ediv (Int.mul D w) (Int.ofNat 6803311407566070556640625)))
        (Int.ediv (Int.mul x h) (Int.ofNat 36525000000000000000000))) K) l K

/-! ## Correctness -/

theorem islet_eq (x : ℤ) (body : ℤ → Bool) : islet x body = body x := by
  cases x <;> rfl

theorem valN_spec {V c : ℕ} {f : ℕ → ℝ} {e : ℝ} (h : Lanes V c f e) (hc : c ≤ 2 ^ 40) {j : ℕ}
    (hj : j < 1024) : |(valN V c (1023 - j) : ℝ) / 2 ^ 56 - f j| ≤ e + 1 / 2 ^ 56 := by
  have e1 : (valN V c (1023 - j) : ℝ) = (digN V (1023 - j) : ℝ) - c * 2 ^ 110 := by
    have : valN V c (1023 - j) = (digN V (1023 - j) : ℤ) - ((c * 2 ^ 110 : ℕ) : ℤ) := by
      rw [← nshl]; rfl
    rw [this]; push_cast; ring
  rw [e1]
  exact digN_spec h hc hj

theorem ediv_near (a : ℤ) {b : ℤ} (hb : 0 < b) : |((a / b : ℤ) : ℝ) - a / b| ≤ 1 := by
  have l := Int.ediv_mul_le a hb.ne'
  have u := Int.lt_ediv_add_one_mul_self a hb
  generalize (a / b : ℤ) = q at *
  have l' : (q : ℝ) * b ≤ a := by exact_mod_cast l
  have u' : (a : ℝ) < (q + 1) * b := by exact_mod_cast u
  have bR : (0 : ℝ) < b := by exact_mod_cast hb
  rw [show (q : ℝ) - a / b = (q * b - a) / b by field_simp, abs_div, abs_of_pos bR, div_le_one bR,
    abs_le]
  constructor <;> linarith

/-- The conversion of radians is accurate. -/
theorem ang_rad (r : Term) (u : ℝ) (hu : |u| ≤ 4e12) (hr : r.2.1 + r.2.2 ≤ 10 ^ 18) :
    |ang 3549273832978999477760892189755 120892581961462917470617600000000000 (aT r) (bT r) u -
      (r.2.1 / 10 ^ 11 + r.2.2 / 10 ^ 11 * (u * 1e-12))| ≤ 1e-11 := by
  have eA : ((aT r : ℤ) : ℝ) = r.2.1 * 10 ^ 12 := by
    have : aT r = ((r.2.1 * 1000000000000 : ℕ) : ℤ) := rfl
    rw [this]; push_cast; ring
  have eB : ((bT r : ℤ) : ℝ) = r.2.2 := by
    have : bT r = (r.2.2 : ℤ) := rfl
    rw [this]; norm_cast
  have h1 := pi_gt_d20
  have h2 := pi_lt_d20
  have hR : (r.2.1 : ℝ) + r.2.2 ≤ 10 ^ 18 := by exact_mod_cast hr
  have b0 : (0 : ℝ) ≤ r.2.1 := Nat.cast_nonneg _
  have c0 : (0 : ℝ) ≤ r.2.2 := Nat.cast_nonneg _
  unfold ang
  rw [eA, eB]
  have e : 2 * π * (((r.2.1 * 10 ^ 12 + r.2.2 * u) * ((3549273832978999477760892189755 : ℕ) : ℝ) /
      ((120892581961462917470617600000000000 : ℕ) : ℝ)) / 2 ^ 64) -
      (r.2.1 / 10 ^ 11 + r.2.2 / 10 ^ 11 * (u * 1e-12)) =
      (r.2.1 * 10 ^ 12 + r.2.2 * u) * (π * (2 * 3549273832978999477760892189755 /
        120892581961462917470617600000000000 / 2 ^ 64) - 1e-23) := by
    push_cast
    norm_num
    ring
  rw [e, abs_mul]
  have k1 : |π * (2 * 3549273832978999477760892189755 /
        120892581961462917470617600000000000 / 2 ^ 64) - 1e-23| ≤ 1e-42 := by
    rw [abs_le]; constructor <;> norm_num at h1 h2 ⊢ <;> linarith
  have k2 : |r.2.1 * 10 ^ 12 + r.2.2 * u| ≤ 4 * 10 ^ 30 := by
    refine (abs_add_le _ _).trans ?_
    rw [abs_mul, abs_mul, abs_of_nonneg b0, abs_of_nonneg c0, abs_of_pos (by positivity : (0 : ℝ) < 10 ^ 12)]
    have := mul_le_mul_of_nonneg_left hu c0
    norm_num at this hR ⊢
    linarith
  refine (mul_le_mul k2 k1 (abs_nonneg _) (by norm_num)).trans (by norm_num)

theorem cos_first (θ δ : ℝ) : |cos (θ + δ) - (cos θ - δ * sin θ)| ≤ δ ^ 2 := by
  have e : cos (θ + δ) - (cos θ - δ * sin θ) = -(cos θ * (1 - cos δ)) + sin θ * (δ - sin δ) := by
    rw [cos_add]; ring
  rw [e]
  have h1 : |1 - cos δ| ≤ δ ^ 2 / 2 := by
    rw [abs_of_nonneg (by linarith [cos_le_one δ])]
    linarith [one_sub_sq_div_two_le_cos (x := δ)]
  have h2 : |δ - sin δ| ≤ δ ^ 2 / 2 := by
    rcases le_total |δ| 3 with h | h
    · refine (abs_sub_sin_le δ).trans ?_
      rw [← sq_abs δ]
      nlinarith [mul_nonneg (sq_nonneg |δ|) (sub_nonneg.2 h)]
    · refine (abs_sub _ _).trans ?_
      rw [← sq_abs δ]
      nlinarith [abs_sin_le_one δ]
  refine (abs_add_le _ _).trans ?_
  rw [abs_neg, abs_mul, abs_mul]
  have a1 := mul_le_mul (abs_cos_le_one θ) h1 (abs_nonneg _) (by norm_num)
  have a2 := mul_le_mul (abs_sin_le_one θ) h2 (abs_nonneg _) (by norm_num)
  linarith

/-- Error of a row, in units of `1e-11`. -/
noncomputable def rowE (r : Term) : ℝ := 1.4e-7 * (r.1 + 1) + 1.1e-36 * (r.1 * (r.2.2 : ℝ) ^ 2)

theorem rowE_nonneg (r : Term) : 0 ≤ rowE r := by
  unfold rowE; positivity

/-- First order expansion of a row. `D` is in `1e-17` day, the time in millennia. -/
theorem row_first (r : Term) {u D : ℝ} (hu : |u| ≤ 4e12) (hD : |D| ≤ 2.6e15)
    (hr : r.2.1 + r.2.2 ≤ 10 ^ 18) :
    |10 ^ 11 * vsopTerm r (u * 1e-12 + D / 36525000000000000000000) -
      (r.1 * cos (ang 3549273832978999477760892189755 120892581961462917470617600000000000 (aT r) (bT r) u)
        - D / 6803311407566070556640625 * (wtT r * (r.1 * sin
          (ang 3549273832978999477760892189755 120892581961462917470617600000000000 (aT r) (bT r) u))))| ≤
      5e-10 * r.1 + 1.1e-36 * (r.1 * (r.2.2 : ℝ) ^ 2) := by
  have h1 := ang_rad r u hu hr
  generalize ang 3549273832978999477760892189755 120892581961462917470617600000000000 (aT r) (bT r) u
    = θ at *
  have a0 : (0 : ℝ) ≤ r.1 := Nat.cast_nonneg _
  have c0 : (0 : ℝ) ≤ r.2.2 := Nat.cast_nonneg _
  set δ : ℝ := r.2.1 / 10 ^ 11 + r.2.2 / 10 ^ 11 * (u * 1e-12 + D / 36525000000000000000000) - θ with hδ
  have e1 : 10 ^ 11 * vsopTerm r (u * 1e-12 + D / 36525000000000000000000) = r.1 * cos (θ + δ) := by
    rw [hδ]; unfold vsopTerm
    rw [show θ + (r.2.1 / 10 ^ 11 + r.2.2 / 10 ^ 11 * (u * 1e-12 + D / 36525000000000000000000) - θ) =
      r.2.1 / 10 ^ 11 + r.2.2 / 10 ^ 11 * (u * 1e-12 + D / 36525000000000000000000) by ring]
    ring
  have hw := Nat.div_add_mod r.2.2 (2 ^ 29)
  have hm := Nat.mod_lt r.2.2 (show 0 < 2 ^ 29 by norm_num)
  have ew : wtT r = r.2.2 / 2 ^ 29 := Nat.shiftRight_eq_div_pow _ _
  rw [← ew] at hw
  generalize r.2.2 % 2 ^ 29 = k at hw hm
  have hwR : (2 : ℝ) ^ 29 * wtT r + k = r.2.2 := by exact_mod_cast hw
  have hkR : (k : ℝ) ≤ 2 ^ 29 := by exact_mod_cast hm.le
  have k0 : (0 : ℝ) ≤ k := Nat.cast_nonneg _
  obtain ⟨η, hη⟩ : ∃ η, η = r.2.1 / 10 ^ 11 + r.2.2 / 10 ^ 11 * (u * 1e-12) - θ := ⟨_, rfl⟩
  have bη : |η| ≤ 1e-11 := by rw [hη, abs_sub_comm]; exact h1
  obtain ⟨d, hd⟩ : ∃ d, d = D / 36525000000000000000000 := ⟨_, rfl⟩
  have bd : |d| ≤ 7.12e-8 := by
    rw [hd, abs_div, abs_of_pos (by norm_num : (0 : ℝ) < 36525000000000000000000), div_le_iff₀ (by norm_num)]
    exact hD.trans (by norm_num)
  have eδ : δ = η + r.2.2 / 10 ^ 11 * d := by rw [hδ, hη, hd]; ring
  have eE : D / 6803311407566070556640625 = d * (2 ^ 29 / 10 ^ 11) := by
    rw [hd]; norm_num; ring
  have eδ2 : δ - D / 6803311407566070556640625 * wtT r = η + k / 10 ^ 11 * d := by
    rw [eδ, eE, ← hwR]; ring
  have b2 : |δ - D / 6803311407566070556640625 * wtT r| ≤ 4.5e-10 := by
    rw [eδ2]
    refine (abs_add_le _ _).trans ?_
    rw [abs_mul, abs_of_nonneg (by positivity : (0 : ℝ) ≤ k / 10 ^ 11)]
    have := mul_le_mul (div_le_div_of_nonneg_right hkR (by norm_num : (0 : ℝ) ≤ 10 ^ 11)) bd (abs_nonneg _)
      (by positivity)
    norm_num at this bη ⊢
    linarith
  have b3 : δ ^ 2 ≤ 1e-20 + 1.1e-36 * (r.2.2 : ℝ) ^ 2 := by
    rw [eδ]
    have q1 : η ^ 2 ≤ 1e-22 := by
      rw [← sq_abs]; exact (pow_le_pow_left₀ (abs_nonneg _) bη 2).trans (by norm_num)
    have q2 : d ^ 2 ≤ 5.07e-15 := by
      rw [← sq_abs]; exact (pow_le_pow_left₀ (abs_nonneg _) bd 2).trans (by norm_num)
    have q3 : (η + r.2.2 / 10 ^ 11 * d) ^ 2 ≤ 2 * η ^ 2 + 2 * ((r.2.2 / 10 ^ 11) ^ 2 * d ^ 2) := by
      nlinarith [sq_nonneg (η - r.2.2 / 10 ^ 11 * d)]
    have q4 := mul_le_mul_of_nonneg_left q2 (sq_nonneg ((r.2.2 : ℝ) / 10 ^ 11))
    have q5 : ((r.2.2 : ℝ) / 10 ^ 11) ^ 2 = (r.2.2 : ℝ) ^ 2 * 1e-22 := by ring
    rw [q5] at q3 q4
    have := sq_nonneg (r.2.2 : ℝ)
    norm_num at q1 q2 q3 q4 ⊢
    linarith
  have b1 := cos_first θ δ
  rw [e1]
  have e2 : r.1 * cos (θ + δ) - (r.1 * cos θ - D / 6803311407566070556640625 * (wtT r * (r.1 * sin θ))) =
      r.1 * ((cos (θ + δ) - (cos θ - δ * sin θ)) - (δ - D / 6803311407566070556640625 * wtT r) * sin θ) := by
    ring
  rw [e2, abs_mul, abs_of_nonneg a0]
  have b4 : |(δ - D / 6803311407566070556640625 * wtT r) * sin θ| ≤ 4.5e-10 * 1 := by
    rw [abs_mul]
    exact mul_le_mul b2 (abs_sin_le_one θ) (abs_nonneg _) (by norm_num)
  have b5 := (abs_sub (cos (θ + δ) - (cos θ - δ * sin θ))
    ((δ - D / 6803311407566070556640625 * wtT r) * sin θ)).trans (add_le_add (b1.trans b3) b4)
  refine (mul_le_mul_of_nonneg_left b5 a0).trans ?_
  norm_num
  linarith

/-- What is known of the sums of a table. -/
def TabOK (thr : ℕ) (U H : ℤ) : ℕ → List (List Term) → List (ℕ × ℕ × ℕ × ℕ) → Prop
  | _, [], [] => True
  | m, s :: c, t :: l =>
    Lanes t.1 t.2.1 (fun j => ((kept thr m (fun r : Term => r.1) s).map fun r => (r.1 : ℝ) * cos
      (ang 3549273832978999477760892189755 120892581961462917470617600000000000 (aT r) (bT r)
        (U + j * H))).sum) (((kept thr m (fun r : Term => r.1) s).map fun r => rowErr r.1).sum) ∧
    Lanes t.2.2.1 t.2.2.2 (fun j => ((kept thr m (fun r : Term => r.1) s).map fun r =>
      (wtT r : ℝ) * (r.1 * sin
      (ang 3549273832978999477760892189755 120892581961462917470617600000000000 (aT r) (bT r)
        (U + j * H)))).sum) (((kept thr m (fun r : Term => r.1) s).map fun r => wtT r * rowErr r.1).sum) ∧
    t.2.1 ≤ 2 ^ 40 ∧ t.2.2.2 ≤ 2 ^ 40 ∧ TabOK thr U H (3 * m) c l
  | _, _, _ => False

/-- Sum of the amplitudes left out. -/
def leftTot (thr : ℕ) : ℕ → List (List Term) → ℕ
  | _, [] => 0
  | m, s :: c => ((left thr m (fun r : Term => r.1) s).map fun r => m * r.1).sum + leftTot thr (3 * m) c

/-- The table fits into the lanes. -/
def fits (c : List (List Term)) : Bool :=
  c.all fun s => (s.all fun r => Nat.ble r.1 8589934592 && Nat.ble (r.2.1 + r.2.2) (10 ^ 18) &&
    Nat.ble r.2.2 (10 ^ 17)) && Nat.ble s.length 1000000 && Nat.ble ((s.map wtT).sum) 1000000000000

theorem tabsN_spec {lv : List (ℕ × ℕ × ℕ)} (h : LvOK 0 lv) (hl : lv.length = 10) (thr : ℕ) (U H : ℤ)
    (c : List (List Term)) (hc : fits c = true) : ∀ m dr, ∃ l,
      (∀ K, tabsN lv thr U H c m dr K = K l (dr + leftTot thr m c)) ∧ TabOK thr U H m c l := by
  induction c with
  | nil => intro m dr; exact ⟨[], fun K => rfl, trivial⟩
  | cons s c ih =>
    intro m dr
    unfold fits at hc
    rw [List.all_cons, Bool.and_eq_true, Bool.and_eq_true, Bool.and_eq_true] at hc
    obtain ⟨⟨⟨hs, hn⟩, hw⟩, hc'⟩ := hc
    have hs' : ∀ r ∈ s, r.1 ≤ 2 ^ 33 := by
      intro r hr
      have := List.all_eq_true.1 hs r hr
      rw [Bool.and_eq_true, Bool.and_eq_true] at this
      have := Nat.le_of_ble_eq_true this.1.1
      omega
    obtain ⟨V, W, eK, hV, hW⟩ := foldN_spec h hl thr m 3549273832978999477760892189755
      120892581961462917470617600000000000 (by norm_num) U H (fun r : Term => r.1) aT bT wtT s hs'
      (dr := dr) lanes_zero lanes_zero
    obtain ⟨l, eL, hL⟩ := ih hc' (3 * m) (dr + ((left thr m (fun r : Term => r.1) s).map fun r => m * r.1).sum)
    have hsub : (kept thr m (fun r : Term => r.1) s).Sublist s := List.filter_sublist
    refine ⟨(V, 0 + (kept thr m (fun r : Term => r.1) s).length, W,
      0 + ((kept thr m (fun r : Term => r.1) s).map wtT).sum) :: l, fun K => ?_, ?_, ?_, ?_, ?_, hL⟩
    · have : tabsN lv thr U H (s :: c) m dr K = foldN lv thr m 3549273832978999477760892189755
        120892581961462917470617600000000000 U H (fun r : Term => r.1) aT bT wtT s 0 0 0 0 dr
          fun V cV W cW dr => slet false (Nat.mul 3 m) fun m => tabsN lv thr U H c m dr fun l dr =>
            K ((V, cV, W, cW) :: l) dr := rfl
      rw [this, eK, slet_eq]
      show tabsN lv thr U H c (3 * m) _ _ = _
      rw [eL, leftTot, ← add_assoc]
    · simpa only [zero_add] using hV
    · simpa only [zero_add] using hW
    · have := hsub.length_le
      have := Nat.le_of_ble_eq_true hn
      show 0 + _ ≤ _
      omega
    · have := (hsub.map wtT).sum_le_sum (fun _ _ => Nat.zero_le _)
      have := Nat.le_of_ble_eq_true hw
      show 0 + _ ≤ _
      omega

/-- Error of the Horner scheme without the rows left out. -/
noncomputable def vErr : ℕ → List (List Term) → ℝ
  | _, [] => 0
  | m, s :: c => m * ((s.map rowE).sum + 1e-15) + vErr (3 * m) c

/-- Bounds of the entries of a row. -/
def RowOK (r : Term) : Prop := r.2.1 + r.2.2 ≤ 10 ^ 18 ∧ r.2.2 ≤ 10 ^ 17

theorem fits_row {s : List Term} {c : List (List Term)} (h : fits (s :: c) = true) {r : Term}
    (hr : r ∈ s) : RowOK r := by
  unfold fits at h
  rw [List.all_cons, Bool.and_eq_true, Bool.and_eq_true, Bool.and_eq_true] at h
  have := List.all_eq_true.1 h.1.1.1 r hr
  rw [Bool.and_eq_true, Bool.and_eq_true] at this
  exact ⟨Nat.le_of_ble_eq_true this.1.2, Nat.le_of_ble_eq_true this.2⟩

theorem rows_first (k : List Term) (hk : ∀ r ∈ k, RowOK r) {u D : ℝ} (hu : |u| ≤ 4e12)
    (hD : |D| ≤ 2.6e15) :
    |10 ^ 11 * (k.map fun r => vsopTerm r (u * 1e-12 + D / 36525000000000000000000)).sum -
      ((k.map fun r => (r.1 : ℝ) * cos
        (ang 3549273832978999477760892189755 120892581961462917470617600000000000 (aT r) (bT r) u)).sum
        - D / 6803311407566070556640625 * (k.map fun r => (wtT r : ℝ) * (r.1 * sin
        (ang 3549273832978999477760892189755 120892581961462917470617600000000000 (aT r) (bT r) u))).sum)| +
      ((k.map fun r => rowErr r.1).sum + |D / 6803311407566070556640625| *
        (k.map fun r => wtT r * rowErr r.1).sum) ≤ (k.map rowE).sum := by
  induction k with
  | nil => simp
  | cons r k ih =>
    have ih := ih fun r hr => hk r (List.mem_cons_of_mem _ hr)
    have h1 := row_first r hu hD (hk r List.mem_cons_self).1
    simp only [List.map_cons, List.sum_cons]
    generalize (k.map fun r => vsopTerm r (u * 1e-12 + D / 36525000000000000000000)).sum = x1 at *
    generalize (k.map fun r => (r.1 : ℝ) * cos
        (ang 3549273832978999477760892189755 120892581961462917470617600000000000 (aT r) (bT r) u)).sum = x2 at *
    generalize (k.map fun r => (wtT r : ℝ) * (r.1 * sin
        (ang 3549273832978999477760892189755 120892581961462917470617600000000000 (aT r) (bT r) u))).sum
          = x3 at *
    generalize (k.map fun r => rowErr r.1).sum = x4 at *
    generalize (k.map fun r => wtT r * rowErr r.1).sum = x5 at *
    generalize (k.map rowE).sum = x6 at *
    generalize vsopTerm r (u * 1e-12 + D / 36525000000000000000000) = y1 at *
    generalize (r.1 : ℝ) * cos
        (ang 3549273832978999477760892189755 120892581961462917470617600000000000 (aT r) (bT r) u) = y2 at *
    generalize (wtT r : ℝ) * (r.1 * sin
        (ang 3549273832978999477760892189755 120892581961462917470617600000000000 (aT r) (bT r) u)) = y3 at *
    have hE : |D / 6803311407566070556640625| ≤ 3.83e-10 := by
      rw [abs_div, abs_of_pos (by norm_num : (0 : ℝ) < 6803311407566070556640625), div_le_iff₀ (by norm_num)]
      exact hD.trans (by norm_num)
    have hw : (wtT r : ℝ) ≤ 187000000 := by
      have e : wtT r = r.2.2 / 2 ^ 29 := Nat.shiftRight_eq_div_pow _ _
      have := (hk r List.mem_cons_self).2
      have : wtT r ≤ 187000000 := by rw [e]; omega
      exact_mod_cast this
    have w0 : (0 : ℝ) ≤ wtT r := Nat.cast_nonneg _
    have a0 : (0 : ℝ) ≤ r.1 := Nat.cast_nonneg _
    generalize D / 6803311407566070556640625 = E at *
    have t1 := mul_le_mul hE hw w0 (by norm_num)
    have t2 := mul_le_mul_of_nonneg_right t1 (by unfold rowErr; positivity : 0 ≤ rowErr r.1)
    have t3 : |10 ^ 11 * (y1 + x1) - (y2 + x2 - E * (y3 + x3))| ≤
        |10 ^ 11 * y1 - (y2 - E * y3)| + |10 ^ 11 * x1 - (x2 - E * x3)| := by
      rw [show 10 ^ 11 * (y1 + x1) - (y2 + x2 - E * (y3 + x3)) =
        (10 ^ 11 * y1 - (y2 - E * y3)) + (10 ^ 11 * x1 - (x2 - E * x3)) by ring]
      exact abs_add_le _ _
    have t4 : 5e-10 * (r.1 : ℝ) + 1.1e-36 * (r.1 * (r.2.2 : ℝ) ^ 2) + rowErr r.1 +
        3.83e-10 * 187000000 * rowErr r.1 ≤ rowE r := by
      unfold rowErr rowE
      norm_num
      linarith
    have e5 : |E| * (wtT r * rowErr r.1 + x5) = |E| * wtT r * rowErr r.1 + |E| * x5 := by ring
    rw [e5]
    generalize |E| * wtT r * rowErr r.1 = z1 at *
    generalize |E| * x5 = z2 at *
    have t5 := t3.trans (add_le_add_left h1 _)
    generalize 3.83e-10 * 187000000 * rowErr r.1 = z3 at *
    generalize 5e-10 * (r.1 : ℝ) + 1.1e-36 * (r.1 * (r.2.2 : ℝ) ^ 2) = z4 at *
    linarith

theorem vsop_abs (r : Term) (t : ℝ) : |10 ^ 11 * vsopTerm r t| ≤ (r.1 : ℝ) := by
  unfold vsopTerm
  rw [show (10 : ℝ) ^ 11 * (r.1 / 10 ^ 11 * cos (r.2.1 / 10 ^ 11 + r.2.2 / 10 ^ 11 * t)) =
    r.1 * cos (r.2.1 / 10 ^ 11 + r.2.2 / 10 ^ 11 * t) by ring, abs_mul, abs_of_nonneg (Nat.cast_nonneg _)]
  exact mul_le_of_le_one_right (Nat.cast_nonneg _) (abs_cos_le_one _)

theorem series_split (thr m : ℕ) (s : List Term) (t : ℝ) :
    m * |10 ^ 11 * seriesVal s t - 10 ^ 11 * ((kept thr m (fun r : Term => r.1) s).map fun r =>
      vsopTerm r t).sum| ≤ ((((left thr m (fun r : Term => r.1) s).map fun r => m * r.1).sum : ℕ) : ℝ) := by
  unfold seriesVal kept left
  induction s with
  | nil => simp
  | cons r s ih =>
    by_cases hk : Nat.ble thr (m * r.1) = true
    · rw [List.filter_cons_of_pos (p := fun r : Term => Nat.ble thr (m * r.1)) hk,
        List.filter_cons_of_neg (p := fun r : Term => !Nat.ble thr (m * r.1)) (by simp [hk])]
      simp only [List.map_cons, List.sum_cons]
      rw [mul_add, mul_add, add_sub_add_left_eq_sub]
      exact ih
    · rw [List.filter_cons_of_neg (p := fun r : Term => Nat.ble thr (m * r.1)) hk,
        List.filter_cons_of_pos (p := fun r : Term => !Nat.ble thr (m * r.1)) (by simp [hk])]
      simp only [List.map_cons, List.sum_cons]
      rw [mul_add, add_sub_assoc, Nat.cast_add]
      have := vsop_abs r t
      have m0 : (0 : ℝ) ≤ m := Nat.cast_nonneg _
      have q := mul_le_mul_of_nonneg_left (abs_add_le (10 ^ 11 * vsopTerm r t)
        (10 ^ 11 * (List.map (fun r => vsopTerm r t) s).sum - 10 ^ 11 *
          (List.map (fun r => vsopTerm r t) (List.filter (fun r => Nat.ble thr (m * r.1)) s)).sum)) m0
      have q2 := mul_le_mul_of_nonneg_left this m0
      rw [mul_add] at q
      push_cast at ih ⊢
      linarith

theorem kept_rowE (thr m : ℕ) (s : List Term) :
    ((kept thr m (fun r : Term => r.1) s).map rowE).sum ≤ (s.map rowE).sum := by
  unfold kept
  induction s with
  | nil => simp
  | cons r s ih =>
    by_cases hk : Nat.ble thr (m * r.1) = true
    · rw [List.filter_cons_of_pos (p := fun r : Term => Nat.ble thr (m * r.1)) hk]
      simp only [List.map_cons, List.sum_cons]
      linarith
    · rw [List.filter_cons_of_neg (p := fun r : Term => Nat.ble thr (m * r.1)) hk]
      simp only [List.map_cons, List.sum_cons]
      linarith [rowE_nonneg r]

theorem hornI_spec (thr : ℕ) (U H : ℤ) {j : ℕ} (hj : j < 1024) {D x : ℤ} (hD : |(D : ℝ)| ≤ 2.6e15)
    (hx : D = x - (U + j * H) * 36525000000) (hu : |((U + j * H : ℤ) : ℝ)| ≤ 4e12)
    (ht : |(x : ℝ) / 36525000000000000000000| ≤ 3) (c : List (List Term)) :
    ∀ m l, fits c = true → TabOK thr U H m c l → ∃ h : ℤ, (∀ K, hornI (1023 - j) D x l K = K h) ∧
      m * |(h : ℝ) / 2 ^ 56 - 10 ^ 11 * pval c (x / 36525000000000000000000)| ≤
        leftTot thr m c + vErr m c := by
  induction c with
  | nil =>
    intro m l _ hT
    cases l with
    | nil => exact ⟨0, fun K => rfl, by simp [pval, leftTot, vErr]⟩
    | cons t l => exact hT.elim
  | cons s c ih =>
    intro m l hc hT
    cases l with
    | nil => exact hT.elim
    | cons t l =>
      obtain ⟨hV, hW, c1, c2, hT'⟩ := hT
      have hc' : fits c = true := by
        unfold fits at hc ⊢
        rw [List.all_cons, Bool.and_eq_true] at hc
        exact hc.2
      obtain ⟨h, eK, hh⟩ := ih (3 * m) l hc' hT'
      refine ⟨valN t.1 t.2.1 (1023 - j) - D * valN t.2.2.1 t.2.2.2 (1023 - j) / 6803311407566070556640625 +
        x * h / 36525000000000000000000, fun K => ?_, ?_⟩
      · have : hornI (1023 - j) D x (t :: l) K = hornI (1023 - j) D x l fun h =>
          islet (valN t.1 t.2.1 (1023 - j)) fun v => islet (valN t.2.2.1 t.2.2.2 (1023 - j)) fun w =>
          islet (Int.add (Int.sub v (Int.ediv (Int.mul D w) (Int.ofNat 6803311407566070556640625)))
            (Int.ediv (Int.mul x h) (Int.ofNat 36525000000000000000000))) K := rfl
        rw [this, eK, islet_eq, islet_eq, islet_eq]
        rfl
      · have k1 := valN_spec hV c1 hj
        have k2 := valN_spec hW c2 hj
        have k3 := series_split thr m s (x / 36525000000000000000000)
        have k5 := kept_rowE thr m s
        have k4 := rows_first (kept thr m (fun r : Term => r.1) s)
          (fun r hr => fits_row hc (List.mem_of_mem_filter hr)) hu hD
        have e0 : ((U + j * H : ℤ) : ℝ) = U + j * H := by push_cast; ring
        have ex : ((U + j * H : ℤ) : ℝ) * 1e-12 + D / 36525000000000000000000 =
            x / 36525000000000000000000 := by
          rw [hx]; push_cast; ring
        rw [ex] at k4
        simp only [← e0] at k1 k2
        have f1 := ediv_near (D * valN t.2.2.1 t.2.2.2 (1023 - j)) (b := 6803311407566070556640625) (by norm_num)
        have f2 := ediv_near (x * h) (b := 36525000000000000000000) (by norm_num)
        rw [leftTot, vErr, pval]
        push_cast at f1 f2
        rw [Int.cast_add, Int.cast_sub, Nat.cast_add]
        generalize (((D * valN t.2.2.1 t.2.2.2 (1023 - j) / 6803311407566070556640625 : ℤ)) : ℝ) = q1 at *
        generalize (((x * h / 36525000000000000000000 : ℤ)) : ℝ) = q2 at *
        generalize (valN t.1 t.2.1 (1023 - j) : ℝ) = v at *
        generalize (valN t.2.2.1 t.2.2.2 (1023 - j) : ℝ) = w at *
        rw [mul_div_right_comm] at f1 f2
        generalize (x : ℝ) / 36525000000000000000000 = τ at *
        have hE : |(D : ℝ) / 6803311407566070556640625| ≤ 1 := by
          rw [abs_div, abs_of_pos (by norm_num : (0 : ℝ) < 6803311407566070556640625),
            div_le_iff₀ (by norm_num)]
          exact hD.trans (by norm_num)
        generalize (D : ℝ) / 6803311407566070556640625 = E at *
        generalize ((kept thr m (fun r : Term => r.1) s).map fun r => (r.1 : ℝ) * cos _).sum = A at *
        generalize ((kept thr m (fun r : Term => r.1) s).map fun r => (wtT r : ℝ) *
          (r.1 * sin _)).sum = B at *
        generalize ((kept thr m (fun r : Term => r.1) s).map fun r => rowErr r.1).sum = e1 at *
        generalize ((kept thr m (fun r : Term => r.1) s).map fun r => wtT r * rowErr r.1).sum = e2 at *
        generalize ((kept thr m (fun r : Term => r.1) s).map fun r => vsopTerm r τ).sum = X at *
        generalize ((kept thr m (fun r : Term => r.1) s).map rowE).sum = z at *
        generalize (s.map rowE).sum = z' at *
        generalize seriesVal s τ = S at *
        generalize pval c τ = P at *
        generalize ((((left thr m (fun r : Term => r.1) s).map fun r => m * r.1).sum : ℕ) : ℝ) = y at *
        generalize vErr (3 * m) c = y' at *
        generalize (h : ℝ) = hR at *
        clear hV hW hT' eK ih e0 ex c1 c2 hc hc' hx hu hD
        have m0 : (0 : ℝ) ≤ m := Nat.cast_nonneg _
        have d1 : |(v - q1 + q2) / 2 ^ 56 - 10 ^ 11 * (S + τ * P)| ≤
            |v / 2 ^ 56 - A| + |q1 - E * w| / 2 ^ 56 + |E| * |w / 2 ^ 56 - B| + |q2 - τ * hR| / 2 ^ 56 +
            |τ| * |hR / 2 ^ 56 - 10 ^ 11 * P| + |10 ^ 11 * X - (A - E * B)| +
            |10 ^ 11 * S - 10 ^ 11 * X| := by
          have p0 : |(2 : ℝ) ^ 56| = 2 ^ 56 := abs_of_pos (by positivity)
          rw [show (v - q1 + q2) / 2 ^ 56 - 10 ^ 11 * (S + τ * P) = (v / 2 ^ 56 - A) + (-((q1 - E * w) / 2 ^ 56))
            + (-(E * (w / 2 ^ 56 - B))) + (q2 - τ * hR) / 2 ^ 56 + τ * (hR / 2 ^ 56 - 10 ^ 11 * P) +
            (-(10 ^ 11 * X - (A - E * B))) + (-(10 ^ 11 * S - 10 ^ 11 * X)) by ring]
          refine (abs_add_le _ _).trans (add_le_add ?_ (abs_neg _).le)
          refine (abs_add_le _ _).trans (add_le_add ?_ (abs_neg _).le)
          refine (abs_add_le _ _).trans (add_le_add ?_ (abs_mul _ _).le)
          refine (abs_add_le _ _).trans (add_le_add ?_ (by rw [abs_div, p0]))
          refine (abs_add_le _ _).trans (add_le_add ?_ (by rw [abs_neg, abs_mul]))
          refine (abs_add_le _ _).trans (add_le_add le_rfl (by rw [abs_neg, abs_div, p0]))
        have d2 := mul_le_mul_of_nonneg_left k2 (abs_nonneg E)
        have d3 := mul_le_mul_of_nonneg_right ht (abs_nonneg (hR / 2 ^ 56 - 10 ^ 11 * P))
        have d4 : |q1 - E * w| / 2 ^ 56 ≤ 1 / 2 ^ 56 := div_le_div_of_nonneg_right f1 (by positivity)
        have d5 : |q2 - τ * hR| / 2 ^ 56 ≤ 1 / 2 ^ 56 := div_le_div_of_nonneg_right f2 (by positivity)
        have d6 := mul_le_mul_of_nonneg_right hE (by positivity : (0 : ℝ) ≤ 1 / 2 ^ 56)
        have d7 : (4 : ℝ) * (1 / 2 ^ 56) ≤ 1e-15 := by norm_num
        have d8 : |(v - q1 + q2) / 2 ^ 56 - 10 ^ 11 * (S + τ * P)| ≤ z' + 1e-15 +
            3 * |hR / 2 ^ 56 - 10 ^ 11 * P| + |10 ^ 11 * S - 10 ^ 11 * X| := by
          rw [mul_add] at d2
          generalize |E| * |w / 2 ^ 56 - B| = g1 at *
          generalize |(v - q1 + q2) / 2 ^ 56 - 10 ^ 11 * (S + τ * P)| = g2 at *
          generalize |τ| * |hR / 2 ^ 56 - 10 ^ 11 * P| = g3 at *
          generalize |hR / 2 ^ 56 - 10 ^ 11 * P| = g4 at *
          generalize |10 ^ 11 * X - (A - E * B)| = g5 at *
          generalize |10 ^ 11 * S - 10 ^ 11 * X| = g6 at *
          generalize |q1 - E * w| / 2 ^ 56 = g7 at *
          generalize |q2 - τ * hR| / 2 ^ 56 = g8 at *
          generalize |v / 2 ^ 56 - A| = g9 at *
          generalize |E| * (1 / 2 ^ 56) = g10 at *
          generalize |E| * e2 = g11 at *
          generalize (1 : ℝ) / 2 ^ 56 = g12 at *
          linarith
        have d9 := mul_le_mul_of_nonneg_left d8 m0
        push_cast at hh
        generalize |(v - q1 + q2) / 2 ^ 56 - 10 ^ 11 * (S + τ * P)| = g2 at *
        generalize |hR / 2 ^ 56 - 10 ^ 11 * P| = g4 at *
        generalize |10 ^ 11 * S - 10 ^ 11 * X| = g6 at *
        linarith

end Verif

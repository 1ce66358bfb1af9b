import Verif.Lemmas.LaneEquinox

/-!
# Sums of waves at one time

The time is an integer `u` in units of `1e-12` millennium.  The values are integers in units of
`2 ^ -128`.
-/

namespace Verif
open Real

set_option exponentiation.threshold 500

/-! ## Definitions evaluated by the kernel -/

/-- Sum over the rows with `thr ≤ m * amp`: `V` collects `amp (1 + cos)`, `S` collects `amp`. -/
noncomputable def psN {α : Type} (thr m num den : ℕ) (u : ℤ) (amp : α → ℕ) (A B : α → ℤ) (l : List α) :
    ℕ → ℕ → (ℤ → Bool) → Bool :=
  List.rec (motive := fun _ => ℕ → ℕ → (ℤ → Bool) → Bool)
    (fun V S K => islet (Int.sub (Int.ofNat V) (Int.ofNat (Nat.shiftLeft S 128))) K)
    (fun r _ ih V S K =>
      slet false (amp r) fun a =>
      bsel (Nat.ble thr (Nat.mul m a))
        (slet false (fracN num den (Int.add (A r) (Int.mul (B r) u))) fun ph =>
          slet false (Nat.add V (Nat.mul a (turnN ph))) fun V => slet false (Nat.add S a) fun S =>
          ih V S K)
        (ih V S K)) l

/-- Value of a table of series. -/
noncomputable def ptN (thr : ℕ) (u : ℤ) (c : List (List Term)) : ℕ → (ℤ → Bool) → Bool :=
  List.rec (motive := fun _ => ℕ → (ℤ → Bool) → Bool) (fun _ K => K (Int.ofNat 0))
    (fun s _ ih m K => slet false (Nat.mul 3 m) fun m' => ih m' fun h =>
      psN thr m 3549273832978999477760892189755 120892581961462917470617600000000000 u
        (fun r : Term => r.1) aT bT s 0 0 fun v =>
      islet (Int.add v (Int.ediv (Int.mul u h) (Int.ofNat 1000000000000))) K) c

/-- Value of a table of rows in degrees. -/
noncomputable def pdN (u : ℤ) (l : List DRow) (K : ℤ → Bool) : Bool :=
  psN 0 0 18446744073709551616 36000000000000000000000000 u (fun r : DRow => r.1)
    (fun r => r.2.1) (fun r => r.2.2) l 0 0 K

/-! ## Correctness -/

theorem frac_near (num den : ℕ) (hd : 0 < den) (A B u : ℤ) :
    |cos (2 * π * ((fracN num den (A + B * u) : ℝ) / 2 ^ 64)) - cos (ang num den A B u)| ≤ 3.5e-19 := by
  obtain ⟨k, η, hη, e⟩ := fracN_spec num den (A + B * u) hd
  have e2 : 2 * π * ((fracN num den (A + B * u) : ℝ) / 2 ^ 64) =
      ang num den A B u + -(2 * π * (η / 2 ^ 64)) + ((-k : ℤ) : ℝ) * (2 * π) := by
    rw [e]; unfold ang; push_cast; ring
  rw [e2, Real.cos_add_int_mul_two_pi]
  have := abs_cos_sub_cos_le (ang num den A B u + -(2 * π * (η / 2 ^ 64))) (ang num den A B u)
  rw [add_sub_cancel_left, abs_neg, abs_mul, abs_div, abs_of_pos (by positivity : (0 : ℝ) < 2 * π),
    abs_of_pos (by positivity : (0 : ℝ) < 2 ^ 64)] at this
  refine this.trans ?_
  have p := pi_lt_d2
  calc 2 * π * (|η| / 2 ^ 64) ≤ 2 * 3.15 * (1 / 2 ^ 64) := by gcongr
    _ ≤ 3.5e-19 := by norm_num

theorem psN_cons {α : Type} (thr m num den : ℕ) (u : ℤ) (amp : α → ℕ) (A B : α → ℤ) (r : α) (l : List α)
    (V S : ℕ) (K : ℤ → Bool) : psN thr m num den u amp A B (r :: l) V S K =
      if Nat.ble thr (m * amp r) = true then
        psN thr m num den u amp A B l (V + amp r * turnN (fracN num den (A r + B r * u))) (S + amp r) K
      else psN thr m num den u amp A B l V S K := by
  have e : psN thr m num den u amp A B (r :: l) V S K =
      slet false (amp r) fun a =>
      bsel (Nat.ble thr (Nat.mul m a))
        (slet false (fracN num den (Int.add (A r) (Int.mul (B r) u))) fun ph =>
          slet false (Nat.add V (Nat.mul a (turnN ph))) fun V => slet false (Nat.add S a) fun S =>
          psN thr m num den u amp A B l V S K)
        (psN thr m num den u amp A B l V S K) := rfl
  rw [e, slet_eq, bsel_eq, slet_eq, slet_eq, slet_eq, nmul, nmul, nadd, nadd, int_add, int_mul]

theorem psN_spec {α : Type} (thr m num den : ℕ) (hd : 0 < den) (u : ℤ) (amp : α → ℕ) (A B : α → ℤ)
    (l : List α) : ∀ V S, ∃ v : ℤ, (∀ K, psN thr m num den u amp A B l V S K = K v) ∧
      |(v : ℝ) / 2 ^ 128 - ((V : ℝ) / 2 ^ 128 - S +
        ((kept thr m amp l).map fun r => (amp r : ℝ) * cos (ang num den (A r) (B r) u)).sum)| ≤
        ((kept thr m amp l).map fun r => 3e-18 * (amp r : ℝ)).sum := by
  induction l with
  | nil =>
    intro V S
    refine ⟨V - S * 2 ^ 128, fun K => ?_, ?_⟩
    · have : psN thr m num den u amp A B [] V S K =
        islet (Int.sub (Int.ofNat V) (Int.ofNat (Nat.shiftLeft S 128))) K := rfl
      rw [this, islet_eq, int_sub, nshl]
      congr 1
    · simp only [kept, List.filter_nil, List.map_nil, List.sum_nil, add_zero]
      have : (((V : ℤ) - S * 2 ^ 128 : ℤ) : ℝ) / 2 ^ 128 - ((V : ℝ) / 2 ^ 128 - S) = 0 := by
        push_cast; field_simp; ring
      rw [this, abs_zero]
  | cons r l ih =>
    intro V S
    by_cases hk : Nat.ble thr (m * amp r) = true
    · obtain ⟨v, e, h⟩ := ih (V + amp r * turnN (fracN num den (A r + B r * u))) (S + amp r)
      refine ⟨v, fun K => ?_, ?_⟩
      · rw [psN_cons, if_pos hk, e]
      · have ek : kept thr m amp (r :: l) = r :: kept thr m amp l :=
          List.filter_cons_of_pos (p := fun r => Nat.ble thr (m * amp r)) hk
        rw [ek, List.map_cons, List.sum_cons, List.map_cons, List.sum_cons]
        have t := turnN_near (fracN num den (A r + B r * u))
        have f := frac_near num den hd (A r) (B r) u
        rw [Nat.cast_add, Nat.cast_add, Nat.cast_mul] at h
        have a0 : (0 : ℝ) ≤ amp r := Nat.cast_nonneg _
        generalize (turnN (fracN num den (A r + B r * u)) : ℝ) = w at *
        generalize cos (2 * π * ((fracN num den (A r + B r * u) : ℝ) / 2 ^ 64)) = c1 at *
        generalize cos (ang num den (A r) (B r) u) = c2 at *
        generalize ((kept thr m amp l).map fun r => (amp r : ℝ) * cos (ang num den (A r) (B r) u)).sum = X at *
        generalize ((kept thr m amp l).map fun r => 3e-18 * (amp r : ℝ)).sum = Y at *
        generalize (amp r : ℝ) = a at *
        have d : |a * (w / 2 ^ 128 - 1 - c2)| ≤ a * 3e-18 := by
          rw [abs_mul, abs_of_nonneg a0]
          refine mul_le_mul_of_nonneg_left ?_ a0
          rw [show w / 2 ^ 128 - 1 - c2 = (w / 2 ^ 128 - (1 + c1)) + (c1 - c2) by ring]
          refine (abs_add_le _ _).trans ((add_le_add t f).trans (by norm_num))
        rw [show (v : ℝ) / 2 ^ 128 - ((V : ℝ) / 2 ^ 128 - S + (a * c2 + X)) =
          ((v : ℝ) / 2 ^ 128 - ((V + a * w) / 2 ^ 128 - (S + a) + X)) + a * (w / 2 ^ 128 - 1 - c2) by ring]
        refine (abs_add_le _ _).trans ((add_le_add h d).trans (le_of_eq ?_))
        ring
    · obtain ⟨v, e, h⟩ := ih V S
      refine ⟨v, fun K => ?_, ?_⟩
      · rw [psN_cons, if_neg hk, e]
      · have ek : kept thr m amp (r :: l) = kept thr m amp l :=
          List.filter_cons_of_neg (p := fun r => Nat.ble thr (m * amp r)) hk
        rw [ek]; exact h

/-- Bound of the errors of a table, without the rows left out. -/
def ptA : ℕ → List (List Term) → ℕ
  | _, [] => 0
  | m, s :: c => m * ((s.map fun r => r.1).sum + 1) + ptA (3 * m) c

theorem kept_sum {thr m : ℕ} (s : List Term) (hs : ∀ r ∈ s, r.2.1 + r.2.2 ≤ 10 ^ 18) {u : ℝ} (hu : |u| ≤ 4e12) :
    |((kept thr m (fun r : Term => r.1) s).map fun r => (r.1 : ℝ) * cos
      (ang 3549273832978999477760892189755 120892581961462917470617600000000000 (aT r) (bT r) u)).sum -
      10 ^ 11 * ((kept thr m (fun r : Term => r.1) s).map fun r => vsopTerm r (u * 1e-12)).sum| ≤
    1e-11 * (((s.map fun r => r.1).sum : ℕ) : ℝ) ∧
    ((kept thr m (fun r : Term => r.1) s).map fun r => 3e-18 * (r.1 : ℝ)).sum ≤
      3e-18 * (((s.map fun r => r.1).sum : ℕ) : ℝ) := by
  induction s with
  | nil => simp [kept]
  | cons r s ih =>
    obtain ⟨i1, i2⟩ := ih fun x hx => hs x (List.mem_cons_of_mem _ hx)
    have a0 : (0 : ℝ) ≤ r.1 := Nat.cast_nonneg _
    rw [List.map_cons, List.sum_cons, Nat.cast_add]
    by_cases hk : Nat.ble thr (m * r.1) = true
    · have ek : kept thr m (fun r : Term => r.1) (r :: s) = r :: kept thr m (fun r : Term => r.1) s :=
        List.filter_cons_of_pos (p := fun r : Term => Nat.ble thr (m * r.1)) hk
      rw [ek, List.map_cons, List.sum_cons, List.map_cons, List.sum_cons, List.map_cons, List.sum_cons]
      have d : |(r.1 : ℝ) * cos (ang 3549273832978999477760892189755
          120892581961462917470617600000000000 (aT r) (bT r) u) - 10 ^ 11 * vsopTerm r (u * 1e-12)| ≤
          1e-11 * (r.1 : ℝ) := by
        rw [show (10 : ℝ) ^ 11 * vsopTerm r (u * 1e-12) =
          r.1 * cos (r.2.1 / 10 ^ 11 + r.2.2 / 10 ^ 11 * (u * 1e-12)) by unfold vsopTerm; ring,
          ← mul_sub, abs_mul, abs_of_nonneg a0, mul_comm (1e-11 : ℝ)]
        refine mul_le_mul_of_nonneg_left ?_ a0
        exact (abs_cos_sub_cos_le _ _).trans (ang_rad r u hu (hs r List.mem_cons_self))
      generalize ((kept thr m (fun r : Term => r.1) s).map fun r => (r.1 : ℝ) * cos
        (ang 3549273832978999477760892189755 120892581961462917470617600000000000 (aT r) (bT r) u)).sum =
        x1 at *
      generalize ((kept thr m (fun r : Term => r.1) s).map fun r => vsopTerm r (u * 1e-12)).sum = x2 at *
      generalize ((kept thr m (fun r : Term => r.1) s).map fun r => 3e-18 * (r.1 : ℝ)).sum = x3 at *
      generalize cos (ang 3549273832978999477760892189755
          120892581961462917470617600000000000 (aT r) (bT r) u) = x4 at *
      constructor
      · rw [show (r.1 : ℝ) * x4 + x1 - 10 ^ 11 * (vsopTerm r (u * 1e-12) + x2) =
          (r.1 * x4 - 10 ^ 11 * vsopTerm r (u * 1e-12)) + (x1 - 10 ^ 11 * x2) by ring]
        refine (abs_add_le _ _).trans ((add_le_add d i1).trans (le_of_eq ?_))
        ring
      · rw [mul_add]; linarith
    · have ek : kept thr m (fun r : Term => r.1) (r :: s) = kept thr m (fun r : Term => r.1) s :=
        List.filter_cons_of_neg (p := fun r : Term => Nat.ble thr (m * r.1)) hk
      rw [ek, mul_add, mul_add]
      constructor
      · exact i1.trans (by norm_num)
      · exact i2.trans (by norm_num)

theorem ptN_spec (thr : ℕ) {u : ℤ} (hu : |(u : ℝ)| ≤ 3e12) (c : List (List Term))
    (hc : ∀ s ∈ c, ∀ r ∈ s, r.2.1 + r.2.2 ≤ 10 ^ 18) :
    ∀ m, ∃ h : ℤ, (∀ K, ptN thr u c m K = K h) ∧
      m * |(h : ℝ) / 2 ^ 128 - 10 ^ 11 * pval c (u * 1e-12)| ≤ (leftTot thr m c : ℝ) + 1.1e-11 * (ptA m c : ℝ) := by
  induction c with
  | nil =>
    intro m
    exact ⟨0, fun K => rfl, by simp [pval, leftTot, ptA]⟩
  | cons s c ih =>
    intro m
    obtain ⟨h, eK, hh⟩ := ih (fun s' hs' => hc s' (List.mem_cons_of_mem _ hs')) (3 * m)
    obtain ⟨v, ev, hv⟩ := psN_spec thr m 3549273832978999477760892189755
      120892581961462917470617600000000000 (by norm_num) u (fun r : Term => r.1) aT bT s 0 0
    refine ⟨v + u * h / 1000000000000, fun K => ?_, ?_⟩
    · have : ptN thr u (s :: c) m K = slet false (Nat.mul 3 m) fun m' => ptN thr u c m' fun h =>
        psN thr m 3549273832978999477760892189755 120892581961462917470617600000000000 u
          (fun r : Term => r.1) aT bT s 0 0 fun v =>
        islet (Int.add v (Int.ediv (Int.mul u h) (Int.ofNat 1000000000000))) K := rfl
      rw [this, slet_eq, nmul, eK, ev, islet_eq]
      rfl
    · obtain ⟨k1, k2⟩ := kept_sum (thr := thr) (m := m) s (hc s List.mem_cons_self) (u := u) (hu.trans (by norm_num))
      have k3 := series_split thr m s (u * 1e-12)
      have f := ediv_near (u * h) (b := 1000000000000) (by norm_num)
      rw [leftTot, ptA, pval]
      push_cast at f
      rw [Int.cast_add, Nat.cast_add, Nat.cast_add, Nat.cast_mul, Nat.cast_add]
      rw [Nat.cast_zero, zero_div, sub_zero, zero_add] at hv
      generalize (((u * h / 1000000000000 : ℤ)) : ℝ) = q at *
      rw [mul_div_right_comm] at f
      have ht : |(u : ℝ) * 1e-12| ≤ 3 := by
        rw [abs_mul, abs_of_pos (by norm_num : (0 : ℝ) < 1e-12)]
        norm_num at hu ⊢; linarith
      have et : (u : ℝ) / 1000000000000 = u * 1e-12 := by ring
      rw [et] at f
      generalize (u : ℝ) * 1e-12 = τ at *
      generalize ((kept thr m (fun r : Term => r.1) s).map fun r => (r.1 : ℝ) * cos _).sum = A at *
      generalize ((kept thr m (fun r : Term => r.1) s).map fun r => 3e-18 * (r.1 : ℝ)).sum = e1 at *
      generalize ((kept thr m (fun r : Term => r.1) s).map fun r => vsopTerm r τ).sum = X at *
      generalize seriesVal s τ = Sv at *
      generalize pval c τ = P at *
      generalize ((((left thr m (fun r : Term => r.1) s).map fun r => m * r.1).sum : ℕ) : ℝ) = y at *
      have z0 : (0 : ℝ) ≤ (((s.map fun r => r.1).sum : ℕ) : ℝ) := Nat.cast_nonneg _
      generalize (((s.map fun r => r.1).sum : ℕ) : ℝ) = z at *
      generalize (ptA (3 * m) c : ℝ) = y' at *
      generalize (h : ℝ) = hR at *
      generalize (v : ℝ) = v at *
      have m0 : (0 : ℝ) ≤ m := Nat.cast_nonneg _
      have d1 : |(v + q) / 2 ^ 128 - 10 ^ 11 * (Sv + τ * P)| ≤
          |v / 2 ^ 128 - A| + |A - 10 ^ 11 * X| + |10 ^ 11 * Sv - 10 ^ 11 * X| + |q - τ * hR| / 2 ^ 128 +
            |τ| * |hR / 2 ^ 128 - 10 ^ 11 * P| := by
        have e : (v + q) / 2 ^ 128 - 10 ^ 11 * (Sv + τ * P) = (v / 2 ^ 128 - A) + (A - 10 ^ 11 * X) -
          (10 ^ 11 * Sv - 10 ^ 11 * X) + (q - τ * hR) / 2 ^ 128 + τ * (hR / 2 ^ 128 - 10 ^ 11 * P) := by ring
        rw [e]
        refine (abs_add_le _ _).trans (add_le_add ?_ (abs_mul _ _).le)
        refine (abs_add_le _ _).trans (add_le_add ?_ (by
          rw [abs_div, abs_of_pos (by positivity : (0 : ℝ) < 2 ^ 128)]))
        refine (abs_sub _ _).trans (add_le_add ?_ le_rfl)
        exact abs_add_le _ _
      have d2 : |τ| * |hR / 2 ^ 128 - 10 ^ 11 * P| ≤ 3 * |hR / 2 ^ 128 - 10 ^ 11 * P| :=
        mul_le_mul_of_nonneg_right ht (abs_nonneg _)
      have d3 : |q - τ * hR| / 2 ^ 128 ≤ 1e-30 := by
        rw [div_le_iff₀ (by positivity)]; refine f.trans ?_; norm_num
      have d4 : |v / 2 ^ 128 - A| + |A - 10 ^ 11 * X| + |q - τ * hR| / 2 ^ 128 ≤ 1.1e-11 * (z + 1) := by
        have := hv.trans k2
        norm_num at this k1 d3 z0 ⊢
        linarith
      have g := mul_le_mul_of_nonneg_left (d1.trans (add_le_add le_rfl d2)) m0
      have g4 := mul_le_mul_of_nonneg_left d4 m0
      rw [Nat.cast_mul] at hh
      push_cast at hh ⊢
      clear d1 d2 d3 d4 hv k1 k2 f
      generalize |v / 2 ^ 128 - A| = w1 at *
      generalize |A - 10 ^ 11 * X| = w2 at *
      generalize |10 ^ 11 * Sv - 10 ^ 11 * X| = w3 at *
      generalize |q - τ * hR| / 2 ^ 128 = w4 at *
      generalize |hR / 2 ^ 128 - 10 ^ 11 * P| = w5 at *
      refine g.trans ?_
      have : (m : ℝ) * (w1 + w2 + w3 + w4 + 3 * w5) = m * (w1 + w2 + w4) + m * w3 + 3 * m * w5 := by ring
      rw [this]
      have : 1.1e-11 * ((m : ℝ) * (z + 1) + y') = m * (1.1e-11 * (z + 1)) + 1.1e-11 * y' := by ring
      rw [this]
      linarith

theorem pdN_spec (u : ℤ) (l : List DRow) : ∃ v : ℤ, (∀ K, pdN u l K = K v) ∧
    |(v : ℝ) / 2 ^ 128 - degS l u| ≤ 3e-18 * (degA l : ℝ) := by
  obtain ⟨v, e, h⟩ := psN_spec 0 0 18446744073709551616 36000000000000000000000000 (by norm_num) u
    (fun r : DRow => r.1) (fun r => r.2.1) (fun r => r.2.2) l 0 0
  refine ⟨v, e, ?_⟩
  rw [kept_zero, Nat.cast_zero, zero_div, sub_zero, zero_add] at h
  have e1 : degS l u = (l.map fun r => (r.1 : ℝ) * cos (ang 18446744073709551616
      36000000000000000000000000 r.2.1 r.2.2 u)).sum := by
    unfold degS
    refine congrArg List.sum (List.map_congr_left fun r _ => ?_)
    rw [ang_deg]
  rw [e1]
  refine h.trans ?_
  clear h e e1
  unfold degA
  induction l with
  | nil => simp
  | cons r l ih =>
    rw [List.map_cons, List.sum_cons, List.map_cons, List.sum_cons, Nat.cast_add, mul_add]
    refine add_le_add ?_ ih
    push_cast
    norm_num

end Verif

import Verif.Model.Dynamical
import Verif.Spec.DeltaT
import Verif.Props.LocalTime
import Mathlib.Order.Interval.Set.Basic
import Mathlib.Data.List.Chain

/-!
# C32, C33, C34: ΔT
-/

namespace Verif
open Spec

/-! ### Bisection -/

theorem rowLt_iff (x r : ℚ × ℚ) : rowLt x r = true ↔ x.1 < r.1 ∨ x.1 = r.1 ∧ x.2 < r.2 := by
  simp [rowLt]

theorem bisectGo_spec (a : List (ℚ × ℚ)) (x : ℚ × ℚ)
    (mono : ∀ (i j : ℕ) ri rj, i ≤ j → a[i]? = some ri → a[j]? = some rj → rowLt x ri = true → rowLt x rj = true) :
    ∀ n lo hi : ℕ, hi - lo ≤ n → lo ≤ hi → hi ≤ a.length →
      (∀ i r, i < lo → a[i]? = some r → rowLt x r = false) →
      (∀ i r, hi ≤ i → a[i]? = some r → rowLt x r = true) →
      bisectGo a x n lo hi ≤ a.length ∧
      (∀ i r, i < bisectGo a x n lo hi → a[i]? = some r → rowLt x r = false) ∧
      (∀ i r, bisectGo a x n lo hi ≤ i → a[i]? = some r → rowLt x r = true) := by
  intro n
  induction n with
  | zero =>
    intro lo hi h1 h2 h3 h4 h5
    have : hi = lo := by omega
    subst this
    exact ⟨h3, h4, h5⟩
  | succ n ih =>
    intro lo hi h1 h2 h3 h4 h5
    rw [bisectGo]
    by_cases hlt : lo < hi
    · rw [if_pos hlt]
      have hm : (lo + hi) / 2 < a.length := by omega
      simp only [List.getElem?_eq_getElem hm]
      by_cases hp : rowLt x a[(lo + hi) / 2] = true
      · rw [if_pos hp]
        refine ih lo ((lo + hi) / 2) (by omega) (by omega) (by omega) h4 ?_
        intro i r hi' hr
        exact mono _ _ _ _ hi' (List.getElem?_eq_getElem hm) hr hp
      · rw [if_neg hp]
        refine ih ((lo + hi) / 2 + 1) hi (by omega) (by omega) h3 ?_ h5
        intro i r hi' hr
        by_contra hc
        rw [Bool.not_eq_false] at hc
        exact hp (mono _ _ _ _ (by omega) hr (List.getElem?_eq_getElem hm) hc)
    · rw [if_neg hlt]
      have : hi = lo := by omega
      subst this
      exact ⟨h3, h4, h5⟩

theorem bisect_spec (a : List (ℚ × ℚ)) (x : ℚ × ℚ) (hs : a.Pairwise (fun p q => p.1 < q.1)) :
    bisect a x ≤ a.length ∧
      (∀ i r, i < bisect a x → a[i]? = some r → rowLt x r = false) ∧
      (∀ i r, bisect a x ≤ i → a[i]? = some r → rowLt x r = true) := by
  refine bisectGo_spec a x ?_ _ _ _ (by omega) (by omega) le_rfl (by intro i r h; omega) ?_
  · intro i j ri rj hij hi hj hp
    rcases Nat.lt_or_eq_of_le hij with hlt | rfl
    · obtain ⟨h1, e1⟩ := List.getElem?_eq_some_iff.mp hi
      obtain ⟨h2, e2⟩ := List.getElem?_eq_some_iff.mp hj
      have := List.pairwise_iff_getElem.mp hs i j h1 h2 hlt
      rw [e1, e2] at this
      rw [rowLt_iff] at hp ⊢
      rcases hp with hp | ⟨hp, -⟩
      · exact .inl (hp.trans this)
      · exact .inl (by rw [hp]; exact this)
    · rw [hi] at hj; cases hj; exact hp
  · intro i r hi hr
    obtain ⟨h1, -⟩ := List.getElem?_eq_some_iff.mp hr
    omega

/-! ### The table -/

/-- Two rows: increasing dates, and ΔT changes by at most 1/80 second a day on average. -/
def RawStep (p q : ℤ × ℤ) : Prop :=
  p.1 < q.1 ∧ 4 * (q.2 - p.2) ≤ 125 * (q.1 - p.1) ∧ 4 * (p.2 - q.2) ≤ 125 * (q.1 - p.1)

instance (p q : ℤ × ℤ) : Decidable (RawStep p q) := by unfold RawStep; infer_instance

instance : IsTrans (ℤ × ℤ) RawStep := ⟨fun _ _ _ h h' => by
  obtain ⟨a, b, c⟩ := h
  obtain ⟨a', b', c'⟩ := h'
  exact ⟨by omega, by omega, by omega⟩⟩

theorem raw_chain : Data.deltaTRaw.IsChain RawStep := by decide +kernel

theorem raw_first : Data.deltaTRaw[0]? = some (9251010, 1210000) := by decide +kernel

theorem raw_last : Data.deltaTRaw.getLast? = some (9827729, 679000) := by decide +kernel

theorem raw_bounds : ∀ r ∈ Data.deltaTRaw, -100000 ≤ r.2 ∧ r.2 ≤ 1210000 := by decide +kernel

theorem raw_length : Data.deltaTRaw.length = 1139 := by decide +kernel

/-- The table with exact decimals. -/
abbrev tbl : List (ℚ × ℚ) := deltaTTable (fun x => x)

theorem table_get {fl : ℚ → ℚ} {i : ℕ} {p : ℚ × ℚ} (h : (deltaTTable fl)[i]? = some p) :
    ∃ a b : ℤ, Data.deltaTRaw[i]? = some (a, b) ∧ p = ((a : ℚ) / 4, fl ((b : ℚ) / 10000)) := by
  unfold deltaTTable at h
  rw [List.getElem?_map] at h
  rcases hr : Data.deltaTRaw[i]? with _ | ⟨a, b⟩
  · rw [hr] at h; simp at h
  · rw [hr] at h
    simp only [Option.map_some, Option.some.injEq] at h
    exact ⟨a, b, rfl, h.symm⟩

theorem raw_pair {i j : ℕ} {p q : ℤ × ℤ} (hi : Data.deltaTRaw[i]? = some p)
    (hj : Data.deltaTRaw[j]? = some q) (hij : i < j) : RawStep p q := by
  have hp := List.isChain_iff_pairwise.mp raw_chain
  obtain ⟨h1, e1⟩ := List.getElem?_eq_some_iff.mp hi
  obtain ⟨h2, e2⟩ := List.getElem?_eq_some_iff.mp hj
  have := List.pairwise_iff_getElem.mp hp i j h1 h2 hij
  rwa [e1, e2] at this

theorem table_pair {i j : ℕ} {p q : ℚ × ℚ} (hi : tbl[i]? = some p) (hj : tbl[j]? = some q)
    (hij : i < j) : p.1 < q.1 ∧ |q.2 - p.2| ≤ (q.1 - p.1) / 80 := by
  obtain ⟨a, b, h1, rfl⟩ := table_get hi
  obtain ⟨c, d, h2, rfl⟩ := table_get hj
  obtain ⟨r1, r2, r3⟩ := raw_pair h1 h2 hij
  have r1' : (a : ℚ) < c := by exact_mod_cast r1
  have r2' : 4 * ((d : ℚ) - b) ≤ 125 * (c - a) := by exact_mod_cast r2
  have r3' : 4 * ((b : ℚ) - d) ≤ 125 * (c - a) := by exact_mod_cast r3
  simp only
  refine ⟨by linarith, ?_⟩
  rw [abs_le]; constructor <;> linarith

theorem table_sorted (fl : ℚ → ℚ) : (deltaTTable fl).Pairwise (fun p q => p.1 < q.1) := by
  unfold deltaTTable
  rw [List.pairwise_map]
  refine (List.isChain_iff_pairwise.mp raw_chain).imp ?_
  intro p q h
  have : (p.1 : ℚ) < q.1 := by exact_mod_cast h.1
  simp only
  linarith

theorem table_length (fl : ℚ → ℚ) : (deltaTTable fl).length = 1139 := by
  unfold deltaTTable; rw [List.length_map, raw_length]

theorem table_first (fl : ℚ → ℚ) : (deltaTTable fl)[0]? = some ((2312752.5 : ℚ), fl 121) := by
  unfold deltaTTable
  rw [List.getElem?_map, raw_first]; norm_num

theorem table_last (fl : ℚ → ℚ) : (deltaTTable fl)[1138]? = some ((2456932.25 : ℚ), fl 67.9) := by
  unfold deltaTTable
  have : Data.deltaTRaw[1138]? = some (9827729, 679000) := by
    rw [← raw_last, List.getLast?_eq_getElem?, raw_length]
  rw [List.getElem?_map, this]; norm_num

/-! ### The year -/

/-- 1 January 1621 and 1 January 2015. -/
theorem jd0_ends : jd0 true 1621 1 1 = 2313118.5 ∧ jd0 true 2015 1 1 = 2457023.5 := by
  unfold jd0 jdn epoch
  rw [daysToYear_true, daysToYear_true, dayOfYear_1, dayOfYear_1]
  norm_num

/-- The year reported by `jd_to_cal` is at least `Y` from 1 January of `Y` on. -/
theorem jdToCal1_year_ge {fl : ℚ → ℚ} (h : Arith fl) (jd : ℚ) (hF : Rounding fl → IsF64 jd)
    (h0 : 32 ≤ jd) (h1 : jd ≤ 2 ^ 39) (Y : ℤ) :
    Y ≤ (jdToCal1 fl jd true).1 ↔ jd0 true Y 1 1 ≤ jd := by
  obtain ⟨y, m, d, f, hv, e, -, -, -, -, -, key⟩ := jdToCal1_parts h jd hF h0 h1
  have hy : (jdToCal1 fl jd true).1 = y := by rw [key]; split_ifs <;> rfl
  have hvY : Valid true Y 1 1 := by
    have := monthLen_ge true Y 1; refine ⟨?_, ?_, ?_, ?_⟩ <;> omega
  rw [hy]
  constructor
  · intro hle
    have : jdn true Y 1 1 ≤ jdn true y m d := by
      rcases lt_or_eq_of_le hle with hlt | rfl
      · exact (jdn_strictMono hvY hv (.inl hlt)).le
      · by_cases h2 : Before (Y, 1, 1) (Y, m, d)
        · exact (jdn_strictMono hvY hv h2).le
        · have : m = 1 ∧ d = 1 := by
            obtain ⟨v1, v2, v3, v4⟩ := hv
            simp only [Before, lt_self_iff_false, true_and, false_or, not_or, not_and, not_lt] at h2
            omega
          rw [this.1, this.2]
    have h2 : (jdn true Y 1 1 : ℚ) ≤ ⌊jd + 1 / 2⌋ := by rw [← e]; exact_mod_cast this
    have h3 := Int.floor_le (jd + 1 / 2)
    unfold jd0; linarith
  · intro hle
    by_contra hc
    rw [not_le] at hc
    have := jdn_strictMono hv hvY (.inl hc)
    rw [e] at this
    have h2 : ((⌊jd + 1 / 2⌋ : ℤ) : ℚ) + 1 ≤ jdn true Y 1 1 := by exact_mod_cast this
    have h3 := Int.lt_floor_add_one (jd + 1 / 2)
    unfold jd0 at hle; linarith

/-! ### C32 -/

/-- The rows that the code uses: neighbours in the table around `jd`. -/
theorem deltaT_rows {fl : ℚ → ℚ} (hfl : FloatLike fl) (jd : ℚ) (h0 : 2312752.5 < jd)
    (h1 : jd ≤ 2456932.25) :
    ∃ i p q, (deltaTTable fl)[i]? = some p ∧ (deltaTTable fl)[i + 1]? = some q ∧ p.1 ≤ jd ∧ jd ≤ q.1 ∧
      pyGet (deltaTTable fl) (bisect (deltaTTable fl) (jd, 0)) = some q ∧
      pyGet (deltaTTable fl) ((bisect (deltaTTable fl) (jd, 0) : ℕ) - 1 : ℤ) = some p := by
  obtain ⟨b1, b2, b3⟩ := bisect_spec (deltaTTable fl) (jd, 0) (table_sorted fl)
  set k := bisect (deltaTTable fl) (jd, 0)
  rw [table_length] at b1
  have k0 : k ≠ 0 := by
    intro hk
    have := b3 0 _ (by omega) (table_first fl)
    rw [rowLt_iff] at this
    simp only at this
    rcases this with h | h <;> linarith
  have k1 : k ≠ 1139 := by
    intro hk
    have := b2 1138 _ (by omega) (table_last fl)
    rw [Bool.eq_false_iff, ne_eq, rowLt_iff, not_or] at this
    simp only at this
    have e : jd = 2456932.25 := le_antisymm h1 (not_lt.mp this.1)
    have p : 0 < fl 67.9 := by
      have := hfl.int_le (n := 67) (x := 67.9) (by norm_num) (by norm_num)
      push_cast at this
      linarith
    exact this.2 ⟨e, p⟩
  obtain ⟨i, hi⟩ : ∃ i, k = i + 1 := ⟨k - 1, by omega⟩
  have hl1 : i < (deltaTTable fl).length := by rw [table_length]; omega
  have hl2 : i + 1 < (deltaTTable fl).length := by rw [table_length]; omega
  have g1 := List.getElem?_eq_getElem hl1
  have g2 := List.getElem?_eq_getElem hl2
  refine ⟨i, _, _, g1, g2, ?_, ?_, ?_, ?_⟩
  · have := b2 i _ (by omega) g1
    rw [Bool.eq_false_iff, ne_eq, rowLt_iff, not_or] at this
    exact not_lt.mp this.1
  · have := b3 (i + 1) _ (by omega) g2
    rw [rowLt_iff] at this
    rcases this with h | h
    · exact h.le
    · exact h.1.le
  · unfold pyGet
    rw [if_pos (by omega), hi]; exact g2
  · unfold pyGet
    rw [if_pos (by omega), hi]
    have : ((i + 1 : ℕ) - 1 : ℤ).toNat = i := by omega
    rw [this]; exact g1

theorem deltaT_in_table {fl : ℚ → ℚ} (h : Arith fl) (jd : ℚ) (hF : Rounding fl → IsF64 jd)
    (h0 : 2313118.5 ≤ jd) (h1 : jd ≤ 2456932.25) :
    ∃ i p q, (deltaTTable fl)[i]? = some p ∧ (deltaTTable fl)[i + 1]? = some q ∧ p.1 ≤ jd ∧ jd ≤ q.1 ∧
      deltaTSeconds fl jd =
        fl (fl (fl (fl (jd - p.1) * fl (q.2 - p.2)) / fl (q.1 - p.1)) + p.2) := by
  obtain ⟨e1, e2⟩ := jd0_ends
  have y1 := (jdToCal1_year_ge h jd hF (by linarith) (by linarith) 1621).mpr (by rw [e1]; exact h0)
  have y2 := mt (jdToCal1_year_ge h jd hF (by linarith) (by linarith) 2015).mp
    (by rw [e2]; norm_num at h1 ⊢; linarith)
  obtain ⟨i, p, q, g1, g2, l1, l2, r1, r2⟩ := deltaT_rows h.floatLike jd (by norm_num at h0 ⊢; linarith) h1
  refine ⟨i, p, q, g1, g2, l1, l2, ?_⟩
  unfold deltaTSeconds
  simp only []
  rw [if_pos ⟨by omega, by omega⟩, r1, r2]

/-- On a segment of the table, the line through its ends. -/
theorem line_ends {p q : ℚ × ℚ} (h : p.1 < q.1) : line p q p.1 = p.2 ∧ line p q q.1 = q.2 := by
  unfold line
  have : q.1 - p.1 ≠ 0 := sub_ne_zero.mpr (ne_of_gt h)
  constructor
  · simp
  · rw [div_self this]; ring

/-- Two segments of the table that share a point give the same value there. -/
theorem segments_agree {i j : ℕ} {p q p' q' : ℚ × ℚ} {x : ℚ} (hp : tbl[i]? = some p)
    (hq : tbl[i + 1]? = some q) (hp' : tbl[j]? = some p') (hq' : tbl[j + 1]? = some q')
    (h1 : p.1 ≤ x) (h2 : x ≤ q.1) (h1' : p'.1 ≤ x) (h2' : x ≤ q'.1) : line p q x = line p' q' x := by
  have lt := (table_pair hp hq (by omega)).1
  have lt' := (table_pair hp' hq' (by omega)).1
  have aux : ∀ {i j : ℕ} {p q p' q' : ℚ × ℚ}, tbl[i]? = some p → tbl[i + 1]? = some q →
      tbl[j]? = some p' → tbl[j + 1]? = some q' → x ≤ q.1 → p'.1 ≤ x → i < j →
      line p q x = line p' q' x := by
    intro i j p q p' q' hp hq hp' hq' h2 h1' hij
    have lt := (table_pair hp hq (by omega)).1
    have lt' := (table_pair hp' hq' (by omega)).1
    have : j = i + 1 := by
      by_contra hc
      have := (table_pair hq hp' (by omega)).1
      linarith
    subst this
    rw [hq] at hp'
    cases hp'
    have : x = q.1 := le_antisymm h2 h1'
    subst this
    rw [(line_ends lt).2, (line_ends lt').1]
  rcases lt_trichotomy i j with hij | rfl | hij
  · exact aux hp hq hp' hq' h2 h1' hij
  · rw [hp] at hp'; rw [hq] at hq'; cases hp'; cases hq'; rfl
  · exact (aux hp' hq' hp hq h2' h1 hij).symm

/-- C32: from 1 January 1621 to the last entry `deltaT_seconds` is the piecewise linear function
through the entries: on each segment (both ends included) it is the line through its ends. -/
theorem deltaT_interpolates (jd : ℚ) (h0 : 2313118.5 ≤ jd) (h1 : jd ≤ 2456932.25) (i : ℕ)
    (p q : ℚ × ℚ) (hp : tbl[i]? = some p) (hq : tbl[i + 1]? = some q) (hpx : p.1 ≤ jd)
    (hxq : jd ≤ q.1) : deltaTSeconds (fun x => x) jd = line p q jd := by
  obtain ⟨j, p', q', g1, g2, l1, l2, e⟩ := deltaT_in_table (.inr rfl) jd (fun h => h.rep _) h0 h1
  rw [segments_agree hp hq g1 g2 hpx hxq l1 l2, e]
  unfold line
  ring

/-- C32: there is always such a segment, and it has positive length: the code never divides by zero
and never reads outside the table. -/
theorem deltaT_segment (jd : ℚ) (h0 : 2312752.5 < jd) (h1 : jd ≤ 2456932.25) :
    ∃ i p q, tbl[i]? = some p ∧ tbl[i + 1]? = some q ∧ p.1 < q.1 ∧ p.1 ≤ jd ∧ jd ≤ q.1 := by
  obtain ⟨i, p, q, g1, g2, l1, l2, -, -⟩ := deltaT_rows FloatLike.id jd h0 h1
  exact ⟨i, p, q, g1, g2, (table_pair g1 g2 (by omega)).1, l1, l2⟩

/-- C32: at a tabulated instant the tabulated value is returned. -/
theorem deltaT_at_entry (i : ℕ) (p : ℚ × ℚ) (hp : tbl[i]? = some p) (h0 : 2313118.5 ≤ p.1) :
    deltaTSeconds (fun x => x) p.1 = p.2 := by
  obtain ⟨hl, -⟩ := List.getElem?_eq_some_iff.mp hp
  rw [table_length] at hl
  have hlast := table_last (fun x => x)
  have h1 : p.1 ≤ 2456932.25 := by
    rcases Nat.lt_or_eq_of_le (Nat.le_of_lt_succ hl) with h | h
    · exact (table_pair hp hlast h).1.le
    · have : i = 1138 := h
      subst this
      rw [hlast] at hp; cases hp; exact le_rfl
  have hi : i ≠ 0 := by
    rintro rfl
    rw [table_first] at hp
    cases hp
    norm_num at h0
  obtain ⟨j, rfl⟩ := Nat.exists_eq_succ_of_ne_zero hi
  have hj : j < tbl.length := by rw [table_length]; omega
  have g := List.getElem?_eq_getElem hj
  have lt := (table_pair g hp (by omega)).1
  rw [deltaT_interpolates p.1 h0 h1 j _ p g hp lt.le le_rfl, (line_ends lt).2]

/-- C32: between two neighbours the value lies between theirs. -/
theorem deltaT_between (jd : ℚ) (h0 : 2313118.5 ≤ jd) (h1 : jd ≤ 2456932.25) (i : ℕ)
    (p q : ℚ × ℚ) (hp : tbl[i]? = some p) (hq : tbl[i + 1]? = some q) (hpx : p.1 ≤ jd)
    (hxq : jd ≤ q.1) :
    min p.2 q.2 ≤ deltaTSeconds (fun x => x) jd ∧ deltaTSeconds (fun x => x) jd ≤ max p.2 q.2 := by
  have lt := (table_pair hp hq (by omega)).1
  rw [deltaT_interpolates jd h0 h1 i p q hp hq hpx hxq]
  unfold line
  set r := (jd - p.1) / (q.1 - p.1) with hr
  have r0 : 0 ≤ r := div_nonneg (by linarith) (by linarith)
  have r1 : r ≤ 1 := (div_le_one (by linarith)).mpr (by linarith)
  rcases le_total p.2 q.2 with h | h
  · rw [min_eq_left h, max_eq_right h]; constructor <;> nlinarith
  · rw [min_eq_right h, max_eq_left h]; constructor <;> nlinarith

/-- C32: hence it is between -10 and 121 seconds over the whole table. -/
theorem deltaT_range (jd : ℚ) (h0 : 2313118.5 ≤ jd) (h1 : jd ≤ 2456932.25) :
    -10 ≤ deltaTSeconds (fun x => x) jd ∧ deltaTSeconds (fun x => x) jd ≤ 121 := by
  obtain ⟨i, p, q, hp, hq, -, l1, l2⟩ := deltaT_segment jd (by norm_num at h0 ⊢; linarith) h1
  obtain ⟨b1, b2⟩ := deltaT_between jd h0 h1 i p q hp hq l1 l2
  have bound : ∀ {i : ℕ} {p : ℚ × ℚ}, tbl[i]? = some p → -10 ≤ p.2 ∧ p.2 ≤ 121 := by
    intro i p h
    obtain ⟨a, b, hr, rfl⟩ := table_get h
    obtain ⟨c1, c2⟩ := raw_bounds _ (List.mem_of_getElem? hr)
    have c1' : (-100000 : ℚ) ≤ b := by exact_mod_cast c1
    have c2' : (b : ℚ) ≤ 1210000 := by exact_mod_cast c2
    simp only
    constructor <;> linarith
  obtain ⟨p1, p2⟩ := bound hp
  obtain ⟨q1, q2⟩ := bound hq
  exact ⟨(le_min p1 q1).trans b1, b2.trans (max_le p2 q2)⟩

/-- C32: it is continuous; more precisely it changes by at most 1/80 second a day. -/
theorem deltaT_lipschitz (a b : ℚ) (h0 : 2313118.5 ≤ a) (hab : a ≤ b) (h1 : b ≤ 2456932.25) :
    |deltaTSeconds (fun x => x) b - deltaTSeconds (fun x => x) a| ≤ (b - a) / 80 := by
  obtain ⟨i, p, q, hp, hq, -, l1, l2⟩ :=
    deltaT_segment a (by norm_num at h0 ⊢; linarith) (hab.trans h1)
  obtain ⟨j, p', q', hp', hq', -, l1', l2'⟩ :=
    deltaT_segment b (by norm_num at h0 ⊢; linarith) h1
  rw [deltaT_interpolates a h0 (hab.trans h1) i p q hp hq l1 l2,
    deltaT_interpolates b (h0.trans hab) h1 j p' q' hp' hq' l1' l2']
  have seg : ∀ {i : ℕ} {p q : ℚ × ℚ} (x y : ℚ), tbl[i]? = some p → tbl[i + 1]? = some q → x ≤ y →
      |line p q y - line p q x| ≤ (y - x) / 80 := by
    intro i p q x y hp hq hxy
    obtain ⟨lt, sl⟩ := table_pair hp hq (by omega)
    have pos : 0 < q.1 - p.1 := by linarith
    have e : line p q y - line p q x = (y - x) / (q.1 - p.1) * (q.2 - p.2) := by unfold line; ring
    rw [e, abs_mul, abs_of_nonneg (div_nonneg (by linarith) pos.le)]
    calc (y - x) / (q.1 - p.1) * |q.2 - p.2| ≤ (y - x) / (q.1 - p.1) * ((q.1 - p.1) / 80) :=
          mul_le_mul_of_nonneg_left sl (div_nonneg (by linarith) pos.le)
      _ = (y - x) / 80 := by field_simp
  rcases lt_or_ge i j with hij | hij
  · have s1 := seg a q.1 hp hq l2
    have s3 := seg p'.1 b hp' hq' l1'
    rw [(line_ends (table_pair hp hq (by omega)).1).2] at s1
    rw [(line_ends (table_pair hp' hq' (by omega)).1).1] at s3
    have s2 : |p'.2 - q.2| ≤ (p'.1 - q.1) / 80 := by
      rcases Nat.lt_or_eq_of_le (Nat.succ_le_of_lt hij) with h | h
      · exact (table_pair hq hp' h).2
      · have : j = i + 1 := h.symm
        subst this
        rw [hq] at hp'; cases hp'; simp
    rw [abs_le] at *
    constructor <;> linarith
  · have hq2 : line p' q' b = line p q b := by
      rcases Nat.lt_or_eq_of_le hij with h | rfl
      · have e1 : b ≤ p.1 := by
          rcases Nat.lt_or_eq_of_le (Nat.succ_le_of_lt h) with h2 | h2
          · exact l2'.trans (table_pair hq' hp h2).1.le
          · have : i = j + 1 := h2.symm
            subst this
            rw [hp] at hq'; cases hq'; exact l2'
        have lt := (table_pair hp hq (by omega)).1
        exact segments_agree hp' hq' hp hq l1' l2' (by linarith) (by linarith)
      · rw [hp] at hp'; rw [hq] at hq'; cases hp'; cases hq'; rfl
    rw [hq2]
    exact seg a b hp hq hab

/-- The hypotheses are met: Meeus, example 10.a, 1977 February 18 at 3h 37m 40s (rounded here to
2443192.65), lies between the entries for 1 February and 1 March, and ΔT is about 47.7 seconds. -/
example : tbl[700]? = some ((2443175.5 : ℚ), (47.6049 : ℚ)) ∧ tbl[701]? = some ((2443203.5 : ℚ), (47.6837 : ℚ)) ∧
    line (2443175.5, 47.6049) (2443203.5, 47.6837) 2443192.65 = 47.653165 := by
  decide +kernel

/-! ### C34 -/

/-- C34: over the table, `dt_to_ut` is strictly increasing. -/
theorem dt_to_ut_strictMono (a b : ℚ) (h0 : 2313118.5 ≤ a) (hab : a < b) (h1 : b ≤ 2456932.25) :
    dtToUt (fun x => x) a < dtToUt (fun x => x) b := by
  have := deltaT_lipschitz a b h0 hab.le h1
  unfold dtToUt
  rw [abs_le] at this
  linarith

/-- C34: and the day it gives keeps its length to within two parts in ten million. -/
theorem dt_to_ut_rate (a b : ℚ) (h0 : 2313118.5 ≤ a) (hab : a ≤ b) (h1 : b ≤ 2456932.25) :
    |(dtToUt (fun x => x) b - dtToUt (fun x => x) a) - (b - a)| ≤ 2e-7 * (b - a) := by
  have := deltaT_lipschitz a b h0 hab h1
  unfold dtToUt
  rw [abs_le] at *
  norm_num at *
  constructor <;> linarith

/-- C34: `dt_to_ut` differs from its argument by at most 121 seconds. -/
theorem dt_to_ut_close (jd : ℚ) (h0 : 2313118.5 ≤ jd) (h1 : jd ≤ 2456932.25) :
    |dtToUt (fun x => x) jd - jd| ≤ 121 / 86400 := by
  obtain ⟨b1, b2⟩ := deltaT_range jd h0 h1
  unfold dtToUt
  rw [abs_le]
  constructor <;> linarith

/-! ### C33 -/

theorem deltaTFormula_eq (yr mo : ℤ) :
    deltaTFormula (fun x => x) yr mo = deltaTPolynomial yr mo := by
  unfold deltaTFormula deltaTPolynomial espenakMeeus midMonth recip
  simp only [List.map, horner]
  rw [show ((mo : ℚ) - 1 / 2) / 12 = ((mo : ℚ) - 0.5) / 12 by norm_num]
  generalize (yr : ℚ) + ((mo : ℚ) - 0.5) / 12 = y
  by_cases c0 : yr < -500
  · rw [if_pos c0, if_pos c0]; ring
  rw [if_neg c0, if_neg c0]
  by_cases c1 : yr < 500
  · rw [if_pos c1, if_pos c1]; ring
  rw [if_neg c1, if_neg c1]
  by_cases c2 : yr < 1600
  · rw [if_pos c2, if_pos c2]; ring
  rw [if_neg c2, if_neg c2]
  by_cases c3 : yr < 1700
  · rw [if_pos c3, if_pos c3]; ring
  rw [if_neg c3, if_neg c3]
  by_cases c4 : yr < 1800
  · rw [if_pos c4, if_pos c4]; ring
  rw [if_neg c4, if_neg c4]
  by_cases c5 : yr < 1860
  · rw [if_pos c5, if_pos c5]; ring
  rw [if_neg c5, if_neg c5]
  by_cases c6 : yr < 1900
  · rw [if_pos c6, if_pos c6]; ring
  rw [if_neg c6, if_neg c6]
  by_cases c7 : yr < 1920
  · rw [if_pos c7, if_pos c7]; ring
  rw [if_neg c7, if_neg c7]
  by_cases c8 : yr < 1941
  · rw [if_pos c8, if_pos c8]; ring
  rw [if_neg c8, if_neg c8]
  by_cases c9 : yr < 1961
  · rw [if_pos c9, if_pos c9]; ring
  rw [if_neg c9, if_neg c9]
  by_cases c10 : yr < 1986
  · rw [if_pos c10, if_pos c10]; ring
  rw [if_neg c10, if_neg c10]
  by_cases c11 : yr < 2005
  · rw [if_pos c11, if_pos c11]; ring
  rw [if_neg c11, if_neg c11]
  by_cases c12 : yr < 2050
  · rw [if_pos c12, if_pos c12]; ring
  rw [if_neg c12, if_neg c12]
  by_cases c13 : yr < 2150
  · rw [if_pos c13, if_pos c13]; ring
  rw [if_neg c13, if_neg c13]
  ring

/-- C33: before 1 January 1621 and after the last entry, `deltaT_seconds` is the polynomial of the
year and month that `jd_to_cal` reports. -/
theorem deltaT_outside (jd : ℚ) (h0 : 32 ≤ jd) (h1 : jd ≤ 2 ^ 39)
    (h : jd < 2313118.5 ∨ 2456932.25 < jd) :
    deltaTSeconds (fun x => x) jd =
      deltaTPolynomial (jdToCal1 (fun x => x) jd true).1 (jdToCal1 (fun x => x) jd true).2.1 := by
  obtain ⟨e1, e2⟩ := jd0_ends
  have y1 := jdToCal1_year_ge (.inr rfl) jd (fun h => h.rep _) h0 h1 1621
  rw [e1] at y1
  rw [← deltaTFormula_eq]
  unfold deltaTSeconds
  simp only []
  split_ifs with hy
  · have hb : 2456932.25 < jd := by
      rcases h with h | h
      · have := y1.mp (by omega); linarith
      · exact h
    have : bisect tbl (jd, 0) = 1139 := by
      obtain ⟨b1, b2, b3⟩ := bisect_spec tbl (jd, 0) (table_sorted _)
      rw [table_length] at b1
      by_contra hc
      have := b3 1138 _ (by omega) (table_last _)
      rw [rowLt_iff] at this
      simp only at this
      rcases this with h | h <;> linarith
    have hn : pyGet tbl (bisect tbl (jd, 0) : ℕ) = none := by
      rw [this]; unfold pyGet
      rw [if_pos (by omega), List.getElem?_eq_none]
      rw [table_length]; omega
    rw [hn]
  · rfl

/-- C33: the year and month are those of the civil date, except on the bad days of C03. -/
theorem deltaT_outside_date (jd : ℚ) (y m d : ℤ) (hv : Valid true y m d) (hb : ¬ BadDay true y m d)
    (hj : jdn true y m d = ⌊jd + 1 / 2⌋) (h0 : 32 ≤ jd) (h1 : jd ≤ 2 ^ 39)
    (h : jd < 2313118.5 ∨ 2456932.25 < jd) :
    deltaTSeconds (fun x => x) jd = deltaTPolynomial y m := by
  rw [deltaT_outside jd h0 h1 h]
  obtain ⟨y', m', d', f, hv', e, -, -, -, -, -, key⟩ :=
    jdToCal1_parts (.inr rfl) jd (fun h => h.rep _) h0 h1
  obtain ⟨rfl, rfl, rfl⟩ := jdn_inj hv hv' (hj.trans e.symm)
  rw [key, if_neg hb]

/-- The hypotheses are met: 333 February 6 (Meeus, example 10.b). -/
example : Valid true 333 2 6 ∧ ¬ BadDay true 333 2 6 := by
  constructor
  · decide
  · rintro ⟨-, h, -⟩; omega

/-- C33: where the polynomials meet, ΔT steps by less than 1.4 seconds from December to January. -/
theorem deltaT_joins : ∀ y ∈ [-500, 500, 1600, 2050, 2150],
    |deltaTPolynomial y 1 - deltaTPolynomial (y - 1) 12| ≤ 1.4 := by
  decide +kernel

/-- C33: the table is not joined to the formulae: at the beginning of 1621 ΔT jumps from 92.6 to 116.5
seconds. -/
theorem deltaT_jump_1621 (jd : ℚ) (h0 : 2313087.5 ≤ jd) (h1 : jd < 2313118.5) :
    deltaTSeconds (fun x => x) jd < 93 ∧ 116 < deltaTSeconds (fun x => x) 2313118.5 := by
  have v : Valid true 1620 12 1 := by decide
  have e1 : jdn true 1620 12 1 = 2313088 := by
    unfold jdn epoch
    rw [daysToYear_true]
    decide
  have e2 : jdn true 1621 1 1 = 2313119 := by
    unfold jdn epoch
    rw [daysToYear_true, dayOfYear_1]
    decide
  constructor
  · have f0 : 2313088 ≤ ⌊jd + 1 / 2⌋ := Int.le_floor.mpr (by push_cast; linarith)
    have f1 : ⌊jd + 1 / 2⌋ < 2313119 := Int.floor_lt.mpr (by push_cast; linarith)
    have hd : ∃ d : ℤ, 1 ≤ d ∧ d ≤ 31 ∧ ⌊jd + 1 / 2⌋ = 2313087 + d := ⟨⌊jd + 1 / 2⌋ - 2313087, by omega, by omega, by omega⟩
    obtain ⟨d, d1, d2, hd⟩ := hd
    have e : jdn true 1620 12 d = ⌊jd + 1 / 2⌋ := by
      rw [hd]
      have : jdn true 1620 12 d = jdn true 1620 12 1 + (d - 1) := by unfold jdn dayOfYear; ring
      rw [this, e1]; ring
    rw [deltaT_outside_date jd 1620 12 d ⟨by norm_num, by norm_num, d1, d2⟩
      (by rintro ⟨-, h, -⟩; omega) e (by linarith) (by linarith) (.inl h1)]
    decide +kernel
  · decide +kernel

/-- C34 fails outside the table: just before 1621 the order of two instants is reversed ... -/
theorem dt_to_ut_decreases_1621 (a : ℚ) (h0 : 2313118.5 - 20 / 86400 ≤ a) (h1 : a < 2313118.5) :
    dtToUt (fun x => x) 2313118.5 < dtToUt (fun x => x) a := by
  obtain ⟨j1, j2⟩ := deltaT_jump_1621 a (by linarith) h1
  unfold dtToUt
  linarith

/-- ... and so it is at ordinary month boundaries, such as 1 February 2030. -/
theorem dt_to_ut_decreases_2030 :
    dtToUt (fun x => x) 2462533.5 < dtToUt (fun x => x) (2462533.5 - 1 / 10000000) := by
  decide +kernel

/-! ### Binary64 -/

theorem raw_steps : Data.deltaTRaw.IsChain (fun p q => p.1 + 112 ≤ q.1 ∧ q.1 ≤ p.1 + 2924) := by
  decide +kernel

/-- C32 in binary64: the value is within `1e-11` seconds of the exact interpolation. -/
theorem deltaT_float {fl : ℚ → ℚ} (h : Rounding fl) (jd : ℚ) (hF : IsF64 jd) (h0 : 2313118.5 ≤ jd)
    (h1 : jd ≤ 2456932.25) :
    |deltaTSeconds fl jd - deltaTSeconds (fun x => x) jd| ≤ 1e-11 := by
  have hl := h.floatLike
  obtain ⟨i, p, q, hp, hq, l1, l2, e⟩ := deltaT_in_table (.inl h) jd (fun _ => hF) h0 h1
  obtain ⟨a, b, r1, rfl⟩ := table_get hp
  obtain ⟨c, d, r2, rfl⟩ := table_get hq
  simp only at l1 l2 e
  have hp' : tbl[i]? = some ((a : ℚ) / 4, (b : ℚ) / 10000) := by
    show (Data.deltaTRaw.map _)[i]? = _
    rw [List.getElem?_map, r1]; rfl
  have hq' : tbl[i + 1]? = some ((c : ℚ) / 4, (d : ℚ) / 10000) := by
    show (Data.deltaTRaw.map _)[i + 1]? = _
    rw [List.getElem?_map, r2]; rfl
  rw [e, deltaT_interpolates jd h0 h1 i _ _ hp' hq' l1 l2]
  unfold line
  simp only
  have st : a + 112 ≤ c ∧ c ≤ a + 2924 := by
    obtain ⟨k1, f1⟩ := List.getElem?_eq_some_iff.mp r1
    obtain ⟨k2, f2⟩ := List.getElem?_eq_some_iff.mp r2
    have := List.isChain_iff_getElem.mp raw_steps i k2
    rw [f1, f2] at this
    exact this
  have st1 : (a : ℚ) + 112 ≤ c := by exact_mod_cast st.1
  have st2 : (c : ℚ) ≤ a + 2924 := by exact_mod_cast st.2
  have bd := fun {r : ℤ × ℤ} {i : ℕ} (hr : Data.deltaTRaw[i]? = some r) =>
    raw_bounds _ (List.mem_of_getElem? hr)
  obtain ⟨b1, b2⟩ := bd r1
  obtain ⟨d1, d2⟩ := bd r2
  have b1' : (-100000 : ℚ) ≤ b := by exact_mod_cast b1
  have b2' : (b : ℚ) ≤ 1210000 := by exact_mod_cast b2
  have d1' : (-100000 : ℚ) ≤ d := by exact_mod_cast d1
  have d2' : (d : ℚ) ≤ 1210000 := by exact_mod_cast d2
  have sl := (table_pair hp' hq' (by omega)).2
  simp only at sl
  set x := jd - (a : ℚ) / 4 with hx
  set D := (c : ℚ) / 4 - a / 4 with hD
  have D0 : 28 ≤ D := by rw [hD]; linarith
  have D1 : D ≤ 731 := by rw [hD]; linarith
  have x0 : 0 ≤ x := by rw [hx]; linarith
  have x1 : x ≤ D := by rw [hx, hD]; linarith
  have eD : fl D = D := by
    have := hl.dyadic (n := c - a) 2 (by norm_num) (by rw [abs_le]; constructor <;> omega)
    have e2 : ((c - a : ℤ) : ℚ) / 2 ^ 2 = D := by rw [hD]; push_cast; ring
    rwa [e2] at this
  rw [eD]
  set y := (b : ℚ) / 10000 with hy
  set z := (d : ℚ) / 10000 with hz
  have y0 : |y| ≤ 121 := by rw [abs_le, hy]; constructor <;> linarith
  have z0 : |z| ≤ 121 := by rw [abs_le, hz]; constructor <;> linarith
  have s10 : |z - y| ≤ 10 := sl.trans (by linarith)
  obtain ⟨ex1, ex2⟩ := abs_le.mp (hl.err_le (B := 731) (by norm_num)
    (by rw [abs_of_nonneg x0]; linarith : |x| ≤ 731))
  obtain ⟨ey1, ey2⟩ := abs_le.mp (hl.err_le (B := 121) (by norm_num) y0)
  obtain ⟨ez1, ez2⟩ := abs_le.mp (hl.err_le (B := 121) (by norm_num) z0)
  obtain ⟨s1, s2⟩ := abs_le.mp s10
  obtain ⟨y1, y2⟩ := abs_le.mp y0
  obtain ⟨ew1, ew2⟩ := abs_le.mp (hl.err_le (x := fl z - fl y) (B := 11) (by norm_num)
    (by rw [abs_le]; constructor <;> norm_num at * <;> linarith))
  generalize fl x = x' at *
  generalize fl y = y' at *
  generalize fl z = z' at *
  generalize fl (z' - y') = w at *
  have wd : |w - (z - y)| ≤ 260 / 2 ^ 52 := by
    rw [abs_le]; constructor <;> norm_num at * <;> linarith
  have wb : |w| ≤ 11 := by
    obtain ⟨q1, q2⟩ := abs_le.mp wd
    rw [abs_le]; constructor <;> norm_num at * <;> linarith
  have xd : |x' - x| ≤ 731 / 2 ^ 52 := abs_le.mpr ⟨ex1, ex2⟩
  have xb : |x'| ≤ 732 := by
    rw [abs_le]; constructor <;> norm_num at * <;> linarith
  have pd : |x' * w - x * (z - y)| ≤ 200000 / 2 ^ 52 := by
    have e3 : x' * w - x * (z - y) = (x' - x) * w + x * (w - (z - y)) := by ring
    rw [e3]
    refine (abs_add_le _ _).trans ?_
    rw [abs_mul, abs_mul, abs_of_nonneg x0]
    have t1 : |x' - x| * |w| ≤ 731 / 2 ^ 52 * 11 :=
      mul_le_mul xd wb (abs_nonneg _) (by positivity)
    have t2 : x * |w - (z - y)| ≤ 731 * (260 / 2 ^ 52) :=
      mul_le_mul (by linarith) wd (abs_nonneg _) (by norm_num)
    norm_num at *
    linarith
  have pb : |x' * w| ≤ 8100 := by
    rw [abs_mul]
    calc |x'| * |w| ≤ 732 * 11 := mul_le_mul xb wb (abs_nonneg _) (by norm_num)
      _ ≤ 8100 := by norm_num
  have pe := hl.err_le (B := 8100) (by norm_num) pb
  generalize fl (x' * w) = P at *
  have pt : |P - x * (z - y)| ≤ 208100 / 2 ^ 52 := by
    have := abs_sub_le P (x' * w) (x * (z - y))
    norm_num at *
    linarith
  have Dp : 0 < D := by linarith
  have qd : |P / D - x / D * (z - y)| ≤ 7440 / 2 ^ 52 := by
    have e4 : P / D - x / D * (z - y) = (P - x * (z - y)) / D := by
      field_simp
    rw [e4, abs_div, abs_of_pos Dp, div_le_iff₀ Dp]
    refine pt.trans ?_
    norm_num
    linarith
  have lb : |x / D * (z - y)| ≤ 10 := by
    rw [abs_mul, abs_of_nonneg (div_nonneg x0 Dp.le)]
    have : x / D ≤ 1 := (div_le_one Dp).mpr x1
    calc x / D * |z - y| ≤ 1 * 10 := mul_le_mul this s10 (abs_nonneg _) (by norm_num)
      _ = 10 := by norm_num
  generalize x / D * (z - y) = L at *
  obtain ⟨l3, l4⟩ := abs_le.mp lb
  obtain ⟨q3, q4⟩ := abs_le.mp qd
  obtain ⟨q5, q6⟩ := abs_le.mp (hl.err_le (x := P / D) (B := 11) (by norm_num)
    (by rw [abs_le]; constructor <;> norm_num at * <;> linarith))
  generalize fl (P / D) = Q at *
  obtain ⟨q7, q8⟩ := abs_le.mp (hl.err_le (x := Q + y') (B := 140) (by norm_num)
    (by rw [abs_le]; constructor <;> norm_num at * <;> linarith))
  rw [abs_le]
  constructor <;> norm_num at * <;> linarith

/-- C34 in binary64: `dt_to_ut` is within `6e-10` days (about 50 microseconds, which is one unit
in the last place of a Julian date) of its exact value inside the table. -/
theorem dt_to_ut_float {fl : ℚ → ℚ} (h : Rounding fl) (jd : ℚ) (hF : IsF64 jd)
    (h0 : 2313118.5 ≤ jd) (h1 : jd ≤ 2456932.25) :
    |dtToUt fl jd - dtToUt (fun x => x) jd| ≤ 6e-10 := by
  have hl := h.floatLike
  obtain ⟨e1, e2⟩ := abs_le.mp (deltaT_float h jd hF h0 h1)
  obtain ⟨r1, r2⟩ := deltaT_range jd h0 h1
  unfold dtToUt
  simp only
  generalize deltaTSeconds fl jd = s at *
  generalize deltaTSeconds (fun x => x) jd = t at *
  obtain ⟨a1, a2⟩ := abs_le.mp (hl.err_le (x := s / 86400) (B := 1) (by norm_num)
    (by rw [abs_le]; constructor <;> norm_num at * <;> linarith))
  generalize fl (s / 86400) = u at *
  have hx : |jd - u| ≤ 2457000 := by
    rw [abs_le]; constructor <;> norm_num at * <;> linarith
  obtain ⟨a3, a4⟩ := abs_le.mp (hl.err_le (B := 2457000) (by norm_num) hx)
  rw [abs_le]
  constructor <;> norm_num at * <;> linarith

end Verif

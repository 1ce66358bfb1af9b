import Verif.Props.CalToJd
import Verif.Props.Arrays

/-!
# C15, C16: fractional years and months
-/

namespace Verif
open Spec

/-! ### Helpers -/

/-- The fractional part of a non-negative binary64 number is exact. -/
theorem FloatLike.fract {fl : ℚ → ℚ} (h : FloatLike fl) {x : ℚ} (hF : IsF64 x) (h0 : 0 ≤ x) :
    fl (x - ⌊x⌋) = x - ⌊x⌋ := by
  apply h.fix
  obtain ⟨m, e, hm, he, hx⟩ := hF
  rcases le_or_gt 0 e with h1 | h1
  · obtain ⟨k, rfl⟩ := Int.eq_ofNat_of_zero_le h1
    have : x = ((m * 2 ^ k : ℤ) : ℚ) := by rw [hx, zpow_natCast]; push_cast; ring
    rw [this, Int.floor_intCast, sub_self]
    exact ⟨0, 0, by norm_num, by norm_num, by norm_num⟩
  · obtain ⟨k, hk⟩ := Int.eq_ofNat_of_zero_le (show 0 ≤ -e by omega)
    have ek : e = -(k : ℤ) := by omega
    have hp : (0 : ℚ) < 2 ^ k := by positivity
    have hz : x * 2 ^ k = m := by
      rw [hx, ek, zpow_neg, zpow_natCast]; field_simp
    have e1 : x - ⌊x⌋ = ((m - ⌊x⌋ * 2 ^ k : ℤ) : ℚ) / 2 ^ k := by
      rw [eq_div_iff hp.ne']; push_cast; rw [← hz]; ring
    rw [e1]
    refine isF64_dyadic k (by omega) ?_
    have f0 : 0 ≤ ⌊x⌋ := Int.floor_nonneg.mpr h0
    have f1 := Int.floor_le x
    have g1 : (0 : ℚ) ≤ ((m - ⌊x⌋ * 2 ^ k : ℤ) : ℚ) := by
      push_cast; rw [← hz]; nlinarith
    have g1' : 0 ≤ m - ⌊x⌋ * 2 ^ k := by exact_mod_cast g1
    have g2 : 0 ≤ ⌊x⌋ * 2 ^ k := mul_nonneg f0 (by positivity)
    have := (abs_le.mp hm).2
    rw [abs_le]; omega

instance {α : Type} [DecidableEq α] : DecidableEq (Except PyErr α)
  | .ok a, .ok b => decidable_of_iff (a = b) (by simp)
  | .error a, .error b => decidable_of_iff (a = b) (by simp)
  | .ok _, .error _ => isFalse (by simp)
  | .error _, .ok _ => isFalse (by simp)

/-- Exactly representable inputs: what the arithmetic `fl` regards as a number. In exact
arithmetic everything is; in binary64 the floats. -/
def Repr (fl : ℚ → ℚ) (x : ℚ) : Prop := fl (x - ⌊x⌋) = x - ⌊x⌋

theorem repr_exact (x : ℚ) : Repr (fun x => x) x := rfl

theorem repr_int {fl : ℚ → ℚ} (h : FloatLike fl) (n : ℤ) : Repr fl n := by
  unfold Repr; rw [Int.floor_intCast, sub_self]; simpa using h.int (n := 0) (by norm_num)

theorem repr_f64 {fl : ℚ → ℚ} (h : FloatLike fl) {x : ℚ} (hF : IsF64 x) (h0 : 0 ≤ x) : Repr fl x :=
  h.fract hF h0

/-- Scatter into the masked positions. -/
theorem maskAssign_filter {α : Type} (p : α → Bool) (v : α → ℚ) (l : List α) :
    maskAssign (l.map p) (List.replicate l.length 0) ((l.filter p).map v) =
      l.map fun x => if p x then v x else 0 := by
  induction l with
  | nil => rfl
  | cons a l ih =>
    by_cases h : p a
    · simp [List.replicate_succ, maskAssign, h, ih]
    · have h' : p a = false := by simpa using h
      simp only [List.map_cons, List.length_cons, List.replicate_succ, h', List.filter_cons,
        Bool.false_eq_true, if_false, maskAssign, ih]

theorem filter_zip_map {α β : Type} (p : α → Bool) (v : α → β) (l : List α) :
    (((l.map v).zip (l.map p)).filter (·.2)).map (·.1) = (l.filter p).map v := by
  induction l with
  | nil => rfl
  | cons a l ih =>
    by_cases h : p a
    · simp [h, ih]
    · have h' : p a = false := by simpa using h
      simp [h', ih]

/-- An integer, as an int or as a float. -/
def Whole (x : Num) (n : ℤ) : Prop := x = .int n ∨ x = .flt n

theorem Whole.val {x : Num} {n : ℤ} (h : Whole x n) : x.val = n := by
  rcases h with rfl | rfl <;> rfl

theorem Whole.toI32 {x : Num} {n : ℤ} (h : Whole x n) (h1 : -2 ^ 31 ≤ n) (h2 : n < 2 ^ 31) :
    x.toI32 = n := by
  rcases h with rfl | rfl
  · show Int.bmod n (2 ^ 32) = n
    rw [Int.bmod_def]; split_ifs <;> omega
  · show (if -2 ^ 31 ≤ trunc (n : ℚ) ∧ trunc (n : ℚ) < 2 ^ 31 then trunc (n : ℚ) else -2 ^ 31) = n
    simp only [trunc_intCast]
    rw [if_pos ⟨h1, h2⟩]

theorem Whole.toInt {x : Num} {n : ℤ} (h : Whole x n) : x.toInt = n := by
  rcases h with rfl | rfl
  · rfl
  · exact trunc_intCast n

theorem stretch_map {α β : Type} (l : List α) (f : α → β) : stretch l.length (l.map f) = l.map f := by
  rcases l with _ | ⟨a, _ | ⟨b, l⟩⟩ <;> rfl

theorem stretch_const {α β : Type} (l : List α) (c : β) :
    stretch l.length [c] = l.map fun _ => c := by
  simp [stretch]

theorem zip_map_self {α β γ : Type} (u : α → β) (v : α → γ) (l : List α) :
    (l.map u).zip (l.map v) = l.map fun x => (u x, v x) := by
  induction l with
  | nil => rfl
  | cons a l ih => simp [ih]

/-- `cal_to_jd` on an array of first days of months. -/
theorem calToJd_dates {α : Type} {fl : ℚ → ℚ} (h : FloatLike fl) (g : Bool) (l : List α)
    (y m : α → Num) (yi mi : α → ℤ) (ms : List Num)
    (hms : ms = l.map m ∨ ∃ c, ms = [c] ∧ ∀ a, m a = c)
    (hne : l ≠ []) (hw : ∀ a ∈ l, Whole (y a) (yi a) ∧ Whole (m a) (mi a))
    (hv : ∀ a ∈ l, 0 ≤ yi a ∧ yi a < 2 ^ 31 ∧ 1 ≤ mi a ∧ mi a ≤ 12) :
    calToJd fl (l.map y) ms [1] g = .ok (scalarIfOne (l.map fun a => jd0 g (yi a) (mi a) 1)) := by
  have hfit : Fits l.length [(l.map y).length, ms.length, ([1] : List ℚ).length] := by
    constructor
    · intro k hk
      simp only [List.mem_cons, List.not_mem_nil, or_false] at hk
      rcases hk with e | e | e <;> rw [e]
      · exact .inr (by simp)
      · rcases hms with rfl | ⟨c, rfl, -⟩
        · exact .inr (by simp)
        · exact .inl rfl
      · exact .inl rfl
    · simp
  have hb := bcast3_fits hfit
  have hs : stretch l.length ms = l.map m := by
    rcases hms with rfl | ⟨c, rfl, hc⟩
    · exact stretch_map l m
    · rw [stretch_const]; exact List.map_congr_left fun a _ => (hc a).symm
  rw [stretch_map, hs, stretch_const, zip_map_self, zip_map_self] at hb
  rw [calToJd_ok_iff fl g _ _ _ _ hb (by simpa using hne), List.map_map]
  have key : ∀ a ∈ l, RowGood fl g (y a, m a, 1) ∧
      calToJdCore fl (y a).val (m a).val 1 g = jd0 g (yi a) (mi a) 1 := by
    intro a ha
    obtain ⟨w1, w2⟩ := hw a ha
    obtain ⟨h1, h2, h3, h4⟩ := hv a ha
    have hval : Valid g (yi a) (mi a) 1 := by
      have := monthLen_ge g (yi a) (mi a); exact ⟨h3, h4, le_rfl, by omega⟩
    have e := cal_to_jd_whole_day h g (yi a) (mi a) 1 (by omega) h2 hval
    rw [(excess_eq g (yi a) (mi a) (by omega)).2 (by rintro ⟨_, c, c1, c2, c3, c4⟩; omega)] at e
    simp only [Int.cast_one, Int.cast_zero, add_zero] at e
    rw [calToJd_single_iff] at e
    obtain ⟨⟨a1, a2, a3, a4, a5, a6, a7⟩, e2⟩ := e
    have z : ¬ fl 0 > 0 := by
      have := h.int (n := 0) (by norm_num)
      simp only [Int.cast_zero] at this
      rw [this]; exact lt_irrefl _
    unfold RowGood
    simp only [w1.val, w2.val, w1.toInt, w1.toI32 (by omega) h2, w2.toI32 (by omega) (by omega),
      sub_self]
    simp only [Num.val, Num.toInt, Out.scalar.injEq] at a3 a4 a5 a6 a7 e2
    exact ⟨⟨z, z, a3, a4, a5, a6, a7⟩, e2.symm⟩
  constructor
  · intro r hr
    obtain ⟨a, ha, rfl⟩ := List.mem_map.mp hr
    exact (key a ha).1
  · congr 1
    exact List.map_congr_left fun a ha => (key a ha).2.symm

/-- The length of the year is the difference of consecutive New Years. -/
theorem jd0_newYear (g : Bool) (y : ℤ) : jd0 g (y + 1) 1 1 = jd0 g y 1 1 + yearLen g y := by
  unfold jd0 jdn
  rw [dayOfYear_1, dayOfYear_1, daysToYear_succ]; push_cast; ring

theorem jd0_half {fl : ℚ → ℚ} (h : FloatLike fl) (g : Bool) (y m : ℤ) (h0 : 0 ≤ y) (h1 : y < 2 ^ 31)
    (h2 : 1 ≤ m) (h3 : m ≤ 12) : fl (jd0 g y m 1) = jd0 g y m 1 ∧ 0 ≤ jd0 g y m 1 := by
  have hval : Valid g y m 1 := by
    have := monthLen_ge g y m; exact ⟨h2, h3, le_rfl, by omega⟩
  have b := dayOfYear_bounds hval
  have l : yearLen g y ≤ 366 := by unfold yearLen; split_ifs <;> norm_num
  have hb : 1 ≤ jdn g y m 1 ∧ jdn g y m 1 ≤ 2 ^ 41 := by
    unfold jdn epoch
    cases g
    · rw [daysToYear_false]; simp; omega
    · rw [daysToYear_true]; simp; omega
  constructor
  · have : jd0 g y m 1 = ((2 * jdn g y m 1 - 1 : ℤ) : ℚ) / 2 ^ 1 := by unfold jd0; push_cast; ring
    rw [this]; exact h.dyadic 1 (by norm_num) (by rw [abs_le]; omega)
  · have : (1 : ℚ) ≤ jdn g y m 1 := by exact_mod_cast hb.1
    unfold jd0; linarith

theorem zipWith_map_self {α β γ δ : Type} (f : β → γ → δ) (u : α → β) (v : α → γ) (l : List α) :
    List.zipWith f (l.map u) (l.map v) = l.map fun x => f (u x) (v x) := by
  induction l with
  | nil => rfl
  | cons a l ih => simp [ih]

theorem fract_pos_iff (x : ℚ) : Int.fract x > 0 ↔ ¬ x = (⌊x⌋ : ℚ) := by
  have h1 := Int.fract_nonneg x
  have h2 := Int.self_sub_floor x
  constructor
  · intro h3 h4; linarith
  · intro h3
    rcases h1.lt_or_eq with h4 | h4
    · exact h4
    · exact absurd (by linarith) h3

/-! ### C15 -/

/-- What C15 promises for one year number: New Year plus the fraction of that year. -/
def fracYear (fl : ℚ → ℚ) (x : ℚ) : ℚ :=
  if x = ⌊x⌋ then jd0 true ⌊x⌋ 1 1
  else fl (jd0 true ⌊x⌋ 1 1 + fl (yearLen true ⌊x⌋ * Int.fract x))

theorem fracYrToJd_gregorian (fl : ℚ → ℚ) (xs : List Num) (g g' : Bool) :
    fracYrToJd fl xs g = fracYrToJd fl xs g' := rfl

/-- C15 for arrays of non-negative years (integers or floats): every element is its New Year plus
the fraction of that Gregorian year. -/
theorem frac_yr_to_jd_array {fl : ℚ → ℚ} (h : FloatLike fl) (xs : List Num) (g : Bool)
    (hne : xs ≠ []) (hx : ∀ x ∈ xs, Repr fl x.val ∧ 0 ≤ x.val ∧ x.val < 2 ^ 31 - 1) :
    fracYrToJd fl xs g = .ok (scalarIfOne (xs.map fun x => fracYear fl x.val)) := by
  have hfl : ∀ x ∈ xs, 0 ≤ ⌊x.val⌋ ∧ ⌊x.val⌋ + 1 < 2 ^ 31 := by
    intro x hm
    obtain ⟨-, h0, h1⟩ := hx x hm
    refine ⟨Int.floor_nonneg.mpr h0, ?_⟩
    have : (⌊x.val⌋ : ℚ) < 2 ^ 31 - 1 := (Int.floor_le _).trans_lt h1
    have : ⌊x.val⌋ < 2 ^ 31 - 1 := by exact_mod_cast this
    omega
  have hi32 : ∀ x ∈ xs, x.toI32 = ⌊x.val⌋ := by
    intro x hm
    have hb := hfl x hm
    obtain ⟨-, h0, h1⟩ := hx x hm
    cases x with
    | int n =>
      simp only [Num.val, Int.floor_intCast] at hb ⊢
      exact (Whole.toI32 (.inl rfl) (by omega) (by omega))
    | flt q =>
      simp only [Num.val] at hb h0 ⊢
      show (if -2 ^ 31 ≤ trunc q ∧ trunc q < 2 ^ 31 then trunc q else -2 ^ 31) = ⌊q⌋
      simp only [trunc_of_nonneg h0]
      rw [if_pos (by omega)]
  have hfr : ∀ x ∈ xs, fl (x.val - x.toI32) = Int.fract x.val := by
    intro x hm; rw [hi32 x hm]; exact (hx x hm).1
  have hmask : (xs.map fun y => fl (y.val - y.toI32)).map (fun f => decide (f > 0)) =
      xs.map fun x => decide (¬ x.val = (⌊x.val⌋ : ℚ)) := by
    rw [List.map_map]
    apply List.map_congr_left
    intro x hm
    simp only [Function.comp, hfr x hm]
    exact decide_eq_decide.mpr (fract_pos_iff _)
  have hfy : (xs.map fun y => fl (y.val - y.toI32)) = xs.map fun x => Int.fract x.val :=
    List.map_congr_left hfr
  have hyi : xs.map Num.toI32 = xs.map fun x => ⌊x.val⌋ := List.map_congr_left hi32
  unfold fracYrToJd
  simp only [hmask]
  set p : Num → Bool := fun x => decide (¬ x.val = (⌊x.val⌋ : ℚ)) with hp
  by_cases hany : (xs.map p).any (· = true) = true
  · rw [if_pos hany, hyi, filter_zip_map p (fun x => ⌊x.val⌋) xs, hfy,
      filter_zip_map p (fun x => Int.fract x.val) xs]
    have hfne : xs.filter p ≠ [] := by
      rw [List.any_map, List.any_eq_true] at hany
      obtain ⟨x, hm, hpx⟩ := hany
      intro hc
      have : x ∈ xs.filter p := List.mem_filter.mpr ⟨hm, by simpa using hpx⟩
      rw [hc] at this; cases this
    have hsub : ∀ x ∈ xs.filter p, x ∈ xs := fun x hm => (List.mem_filter.mp hm).1
    have c1 := calToJd_dates h true (xs.filter p) (fun x => .int (⌊x.val⌋ + 1)) (fun _ => .int 1)
      (fun x => ⌊x.val⌋ + 1) (fun _ => 1) [.int 1] (.inr ⟨_, rfl, fun _ => rfl⟩) hfne
      (fun _ _ => ⟨.inl rfl, .inl rfl⟩) (fun x hm => by have := hfl x (hsub x hm); omega)
    have c2 := calToJd_dates h true (xs.filter p) (fun x => .int ⌊x.val⌋) (fun _ => .int 1)
      (fun x => ⌊x.val⌋) (fun _ => 1) [.int 1] (.inr ⟨_, rfl, fun _ => rfl⟩) hfne
      (fun _ _ => ⟨.inl rfl, .inl rfl⟩) (fun x hm => by have := hfl x (hsub x hm); omega)
    have c3 := calToJd_dates h true xs (fun x => .int ⌊x.val⌋) (fun _ => .int 1)
      (fun x => ⌊x.val⌋) (fun _ => 1) [.int 1] (.inr ⟨_, rfl, fun _ => rfl⟩) hne
      (fun _ _ => ⟨.inl rfl, .inl rfl⟩) (fun x hm => by have := hfl x hm; omega)
    simp only [List.map_map, Function.comp_def] at c1 c2 c3 ⊢
    rw [c1, c2, c3]
    simp only [scalarIfOne_toList, subArr, mulArr, addArr, zipWith_map_self]
    have hlen : (List.replicate xs.length (0 : ℚ)) = List.replicate xs.length 0 := rfl
    rw [maskAssign_filter, zipWith_map_self]
    congr 2
    apply List.map_congr_left
    intro x hm
    have hb := hfl x hm
    have hj := jd0_half h true ⌊x.val⌋ 1 hb.1 (by omega) le_rfl (by norm_num)
    have hyl : fl (jd0 true (⌊x.val⌋ + 1) 1 1 - jd0 true ⌊x.val⌋ 1 1) = yearLen true ⌊x.val⌋ := by
      rw [jd0_newYear, add_sub_cancel_left]
      exact h.int (by unfold yearLen; split_ifs <;> norm_num)
    rw [hyl]
    unfold fracYear
    by_cases hi : x.val = (⌊x.val⌋ : ℚ)
    · have hpx : p x = false := by simp [hp, ← hi]
      rw [hpx, if_pos hi]; simp [hj.1]
    · have hpx : p x = true := by simp [hp, hi]
      rw [hpx, if_neg hi]; simp
  · rw [if_neg hany]
    have hall : ∀ x ∈ xs, x.val = (⌊x.val⌋ : ℚ) := by
      intro x hm
      by_contra hc
      apply hany
      rw [List.any_map, List.any_eq_true]
      exact ⟨x, hm, by simp [hp, hc]⟩
    have hw : ∀ x ∈ xs, Whole x ⌊x.val⌋ := by
      intro x hm
      have := hall x hm
      cases x with
      | int n => left; simp [Num.val]
      | flt q => right; simp only [Num.val] at this ⊢; rw [← this]
    have c := calToJd_dates h true xs id (fun _ => .int 1)
      (fun x => ⌊x.val⌋) (fun _ => 1) [.int 1] (.inr ⟨_, rfl, fun _ => rfl⟩) hne
      (fun x hm => ⟨hw x hm, .inl rfl⟩) (fun x hm => by have := hfl x hm; omega)
    rw [List.map_id] at c
    rw [c]
    congr 2
    apply List.map_congr_left
    intro x hm
    unfold fracYear
    rw [if_pos (hall x hm)]


/-- C15, one value in any arithmetic, with `y` the year and `f` the fraction. -/
theorem frac_yr_to_jd_float {fl : ℚ → ℚ} (h : FloatLike fl) (y : ℤ) (f : ℚ) (g : Bool)
    (hy : 0 ≤ y) (hy2 : y < 2 ^ 31 - 1) (hf : 0 < f) (hf1 : f < 1) (hF : fl f = f) :
    fracYrToJd fl [.flt (y + f)] g =
      .ok (.scalar (fl (jd0 true y 1 1 + fl (yearLen true y * f)))) := by
  have e : ⌊(y : ℚ) + f⌋ = y := by
    rw [Int.floor_eq_iff]; constructor <;> linarith
  have hy' : (0 : ℚ) ≤ y := by exact_mod_cast hy
  have hy2' : (y : ℚ) + 1 ≤ 2 ^ 31 - 1 := by exact_mod_cast hy2
  have hfr : Int.fract ((y : ℚ) + f) = f := by rw [Int.fract, e]; ring
  have := frac_yr_to_jd_array h [.flt (y + f)] g (by simp) (by
    intro x hx
    rw [List.mem_singleton] at hx
    subst hx
    refine ⟨?_, ?_, ?_⟩
    · unfold Repr; simp only [Num.val, e, add_sub_cancel_left, hF]
    · simp only [Num.val]; linarith
    · simp only [Num.val]; linarith)
  rw [this]
  simp only [List.map_cons, List.map_nil, scalarIfOne, Num.val]
  unfold fracYear
  rw [e, hfr, if_neg (by linarith)]

/-- C15 in exact arithmetic. -/
theorem frac_yr_to_jd_exact (y : ℤ) (f : ℚ) (g : Bool)
    (hy : 0 ≤ y) (hy2 : y < 2 ^ 31 - 1) (hf : 0 ≤ f) (hf1 : f < 1) :
    fracYrToJd (fun x => x) [.flt (y + f)] g =
      .ok (.scalar (jd0 true y 1 1 + yearLen true y * f)) := by
  rcases hf.lt_or_eq with h | rfl
  · exact frac_yr_to_jd_float FloatLike.id y f g hy hy2 h hf1 rfl
  · have hy' : (0 : ℚ) ≤ y := by exact_mod_cast hy
    have hy2' : (y : ℚ) < 2 ^ 31 - 1 := by exact_mod_cast hy2
    have := frac_yr_to_jd_array FloatLike.id [.flt y] g (by simp) (by
      intro x hx
      rw [List.mem_singleton] at hx
      subst hx
      exact ⟨rfl, hy', hy2'⟩)
    rw [add_zero, this]
    simp only [List.map_cons, List.map_nil, scalarIfOne, Num.val, fracYear, Int.floor_intCast,
      if_true, mul_zero, add_zero]

theorem yearLen_pos (g : Bool) (y : ℤ) : 0 < yearLen g y := by unfold yearLen; split_ifs <;> norm_num
theorem yearLen_le (g : Bool) (y : ℤ) : yearLen g y ≤ 366 := by
  unfold yearLen; split_ifs <;> norm_num

/-- New Years are in order. -/
theorem jd0_newYear_mono (g : Bool) {y z : ℤ} (h : y ≤ z) : jd0 g y 1 1 ≤ jd0 g z 1 1 := by
  obtain ⟨n, rfl⟩ := Int.le.dest h
  induction n with
  | zero => simp
  | succ n ih =>
    have e : y + ((n + 1 : ℕ) : ℤ) = y + n + 1 := by push_cast; ring
    rw [e, jd0_newYear]
    have : (0 : ℚ) < yearLen g (y + n) := by exact_mod_cast yearLen_pos g _
    have := ih (by omega)
    linarith

/-- Inside its year: never before New Year, never after the next one, in any arithmetic. -/
theorem fracYear_bounds {fl : ℚ → ℚ} (h : FloatLike fl) {x : ℚ} (h0 : 0 ≤ x) (h1 : x < 2 ^ 31 - 1) :
    jd0 true ⌊x⌋ 1 1 ≤ fracYear fl x ∧ fracYear fl x ≤ jd0 true (⌊x⌋ + 1) 1 1 := by
  have f0 : 0 ≤ ⌊x⌋ := Int.floor_nonneg.mpr h0
  have f1 : ⌊x⌋ + 1 < 2 ^ 31 := by
    have : (⌊x⌋ : ℚ) < 2 ^ 31 - 1 := (Int.floor_le _).trans_lt h1
    have : ⌊x⌋ < 2 ^ 31 - 1 := by exact_mod_cast this
    omega
  have a1 := jd0_half h true ⌊x⌋ 1 f0 (by omega) le_rfl (by norm_num)
  have a2 := jd0_half h true (⌊x⌋ + 1) 1 (by omega) f1 le_rfl (by norm_num)
  have b1 := Int.fract_nonneg x
  have b2 := Int.fract_lt_one x
  have l0 : (0 : ℚ) < yearLen true ⌊x⌋ := by exact_mod_cast yearLen_pos true _
  have hl : fl (yearLen true ⌊x⌋ * Int.fract x) ≤ yearLen true ⌊x⌋ :=
    h.le_int (by have := yearLen_pos true ⌊x⌋; have := yearLen_le true ⌊x⌋; rw [abs_le]; omega)
      (by nlinarith)
  have hl0 : 0 ≤ fl (yearLen true ⌊x⌋ * Int.fract x) := h.nonneg (by positivity)
  have hn := jd0_newYear true ⌊x⌋
  unfold fracYear
  split_ifs
  · exact ⟨le_rfl, by linarith⟩
  · constructor
    · rw [← a1.1]; exact h.mono (by rw [a1.1]; linarith)
    · rw [← a2.1]; exact h.mono (by rw [hn]; linarith)

/-- C15: a later year number never gives an earlier Julian Day, in any arithmetic. -/
theorem frac_yr_to_jd_mono {fl : ℚ → ℚ} (h : FloatLike fl) (x z : ℚ) (g g' : Bool) (hx : Repr fl x)
    (hz : Repr fl z) (h0 : 0 ≤ x) (hxz : x ≤ z) (h1 : z < 2 ^ 31 - 1) :
    ∃ a b, fracYrToJd fl [.flt x] g = .ok (.scalar a) ∧ fracYrToJd fl [.flt z] g' = .ok (.scalar b) ∧
      a ≤ b := by
  have e : ∀ (w : ℚ) (g : Bool), Repr fl w → 0 ≤ w → w < 2 ^ 31 - 1 →
      fracYrToJd fl [.flt w] g = .ok (.scalar (fracYear fl w)) := by
    intro w g h1 h2 h3
    rw [frac_yr_to_jd_array h [.flt w] g (by simp) (by
      intro x hx; rw [List.mem_singleton] at hx; subst hx; exact ⟨h1, h2, h3⟩)]
    rfl
  refine ⟨_, _, e x g hx h0 (by linarith), e z g' hz (by linarith) h1, ?_⟩
  rcases (Int.floor_le_floor hxz).lt_or_eq with hlt | heq
  · have b1 := (fracYear_bounds h h0 (by linarith : x < 2 ^ 31 - 1)).2
    have b2 := (fracYear_bounds h (by linarith : 0 ≤ z) h1).1
    have := jd0_newYear_mono true (show ⌊x⌋ + 1 ≤ ⌊z⌋ by omega)
    linarith
  · have l0 : (0 : ℚ) < yearLen true ⌊z⌋ := by exact_mod_cast yearLen_pos true _
    have b2 := (fracYear_bounds h (by linarith : 0 ≤ z) h1).1
    have hfr : Int.fract x ≤ Int.fract z := by
      unfold Int.fract; rw [heq]; linarith
    unfold fracYear at b2 ⊢
    rw [heq]
    split_ifs with c1 c2
    · exact le_rfl
    · rw [if_neg c2] at b2; exact b2
    · exfalso
      have := Int.floor_le x
      rw [heq] at this
      exact c1 (le_antisymm (by rw [← ‹z = (⌊z⌋ : ℚ)›]; exact hxz) this)
    · exact h.mono (by have := h.mono (mul_le_mul_of_nonneg_left hfr l0.le); linarith)

/-- C15: strictly increasing in exact arithmetic, across year boundaries too. -/
theorem frac_yr_to_jd_strictMono (x z : ℚ) (g g' : Bool) (h0 : 0 ≤ x) (hxz : x < z)
    (h1 : z < 2 ^ 31 - 1) :
    ∃ a b, fracYrToJd (fun x => x) [.flt x] g = .ok (.scalar a) ∧
      fracYrToJd (fun x => x) [.flt z] g' = .ok (.scalar b) ∧ a < b ∧ b - a ≤ 366 * (z - x) ∧
      365 * (z - x) ≤ b - a := by
  have e : ∀ (w : ℚ) (g : Bool), 0 ≤ w → w < 2 ^ 31 - 1 →
      fracYrToJd (fun x => x) [.flt w] g =
        .ok (.scalar (jd0 true ⌊w⌋ 1 1 + yearLen true ⌊w⌋ * Int.fract w)) := by
    intro w g h2 h3
    have h4 : (⌊w⌋ : ℚ) < 2 ^ 31 - 1 := (Int.floor_le _).trans_lt h3
    have := frac_yr_to_jd_exact ⌊w⌋ (Int.fract w) g (Int.floor_nonneg.mpr h2)
      (by exact_mod_cast h4) (Int.fract_nonneg _) (Int.fract_lt_one _)
    rwa [Int.floor_add_fract] at this
  refine ⟨_, _, e x g h0 (by linarith), e z g' (by linarith) h1, ?_⟩
  have key : ∀ (y : ℤ) (n : ℕ), (365 : ℚ) * n ≤ jd0 true (y + n) 1 1 - jd0 true y 1 1 ∧
      jd0 true (y + n) 1 1 - jd0 true y 1 1 ≤ 366 * n := by
    intro y n
    induction n with
    | zero => simp
    | succ n ih =>
      have e : y + ((n + 1 : ℕ) : ℤ) = y + n + 1 := by push_cast; ring
      have l1 : (365 : ℚ) ≤ yearLen true (y + n) := by
        have : 365 ≤ yearLen true (y + n) := by unfold yearLen; split_ifs <;> norm_num
        exact_mod_cast this
      have l2 : (yearLen true (y + n) : ℚ) ≤ 366 := by exact_mod_cast yearLen_le true _
      rw [e, jd0_newYear]; push_cast
      constructor <;> linarith [ih.1, ih.2]
  have lx : (365 : ℚ) ≤ yearLen true ⌊x⌋ ∧ (yearLen true ⌊x⌋ : ℚ) ≤ 366 := by
    refine ⟨?_, by exact_mod_cast yearLen_le true _⟩
    have : 365 ≤ yearLen true ⌊x⌋ := by unfold yearLen; split_ifs <;> norm_num
    exact_mod_cast this
  have lz : (365 : ℚ) ≤ yearLen true ⌊z⌋ ∧ (yearLen true ⌊z⌋ : ℚ) ≤ 366 := by
    refine ⟨?_, by exact_mod_cast yearLen_le true _⟩
    have : 365 ≤ yearLen true ⌊z⌋ := by unfold yearLen; split_ifs <;> norm_num
    exact_mod_cast this
  have fx0 := Int.fract_nonneg x
  have fz0 := Int.fract_nonneg z
  have fx1 := Int.fract_lt_one x
  have ex := Int.floor_add_fract x
  have ez := Int.floor_add_fract z
  suffices H : 365 * (z - x) ≤ jd0 true ⌊z⌋ 1 1 + yearLen true ⌊z⌋ * Int.fract z -
        (jd0 true ⌊x⌋ 1 1 + yearLen true ⌊x⌋ * Int.fract x) ∧
      jd0 true ⌊z⌋ 1 1 + yearLen true ⌊z⌋ * Int.fract z -
        (jd0 true ⌊x⌋ 1 1 + yearLen true ⌊x⌋ * Int.fract x) ≤ 366 * (z - x) from
    ⟨by linarith [H.1], H.2, H.1⟩
  rcases (Int.floor_le_floor hxz.le).lt_or_eq with hlt | heq
  · obtain ⟨n, hn⟩ := Int.le.dest (show ⌊x⌋ + 1 ≤ ⌊z⌋ by omega)
    have hk := key (⌊x⌋ + 1) n
    rw [hn, jd0_newYear] at hk
    have hzq : (⌊z⌋ : ℚ) = ⌊x⌋ + 1 + n := by rw [← hn]; push_cast; ring
    constructor <;> nlinarith [mul_nonneg fz0 (sub_nonneg.mpr lz.1),
      mul_nonneg fz0 (sub_nonneg.mpr lz.2), mul_nonneg (sub_nonneg.mpr fx1.le) (sub_nonneg.mpr lx.1),
      mul_nonneg (sub_nonneg.mpr fx1.le) (sub_nonneg.mpr lx.2)]
  · rw [← heq] at lz ez ⊢
    have hfr : Int.fract z - Int.fract x = z - x := by linarith
    constructor <;> nlinarith [mul_nonneg (sub_nonneg.mpr hxz.le) (sub_nonneg.mpr lz.1),
      mul_nonneg (sub_nonneg.mpr hxz.le) (sub_nonneg.mpr lz.2)]

/-- C15, the defect: a Julian calendar request gets the Gregorian answer.  For 1 January 2000
(Julian calendar) the call returns a Julian Day 13 days too small, in every arithmetic; the Julian
answer is the one `cal_to_jd` gives. -/
theorem frac_yr_to_jd_ignores_calendar {fl : ℚ → ℚ} (h : FloatLike fl) :
    fracYrToJd fl [.flt 2000] false = .ok (.scalar (2451544 + 1 / 2)) ∧
    calToJd fl [.int 2000] [.int 1] [1] false = .ok (.scalar (2451557 + 1 / 2)) := by
  have e : (2000 : ℚ) = ((2000 : ℤ) : ℚ) := by norm_num
  constructor
  · have := frac_yr_to_jd_array h [.flt 2000] false (by simp) (by
      intro x hx; rw [List.mem_singleton] at hx; subst hx
      refine ⟨?_, ?_, ?_⟩ <;> simp only [Num.val]
      · rw [e]; exact repr_int h 2000
      · norm_num
      · norm_num)
    rw [this]
    simp only [List.map_cons, List.map_nil, scalarIfOne]
    have e2 : fracYear fl ((2000 : ℤ) : ℚ) = jd0 true 2000 1 1 := by
      unfold fracYear; simp only [Int.floor_intCast, if_true]
    rw [show (Num.flt 2000).val = ((2000 : ℤ) : ℚ) from e, e2]
    have := j2000
    rw [show jd0 true 2000 1 1 = 2451544 + 1 / 2 by linarith]
  · have := cal_to_jd_julian h 2000 1 1 (by norm_num) (by norm_num) (by decide)
    rw [Int.cast_one] at this
    rw [this]
    congr 2
    unfold jd0 jdn epoch
    rw [daysToYear_false, dayOfYear_1]; norm_num

/-- C15, the defect for negative years: the value of one element depends on its neighbours.
Exact arithmetic; `-1/2` alone, and next to `1/2`. -/
theorem frac_yr_to_jd_negative_inconsistent :
    fracYrToJd (fun x => x) [.flt (-1 / 2)] true = .ok (.scalar (1720877 + 1 / 2)) ∧
    fracYrToJd (fun x => x) [.flt (-1 / 2), .flt (1 / 2)] true =
      .ok (.arr [1721059 + 1 / 2, 1721242 + 1 / 2]) := by
  constructor <;> decide +kernel

/-- The hypotheses are met: the middle of 2024 in any arithmetic. -/
example {fl : ℚ → ℚ} (h : FloatLike fl) :
    fracYrToJd fl [.flt (2024 + 1 / 2)] true = .ok (.scalar (2460493 + 1 / 2)) := by
  have := frac_yr_to_jd_float h 2024 (1 / 2) true (by norm_num) (by norm_num) (by norm_num)
    (by norm_num) (by simpa using h.dyadic (n := 1) 1 (by norm_num) (by norm_num))
  have e : (yearLen true 2024 : ℚ) * (1 / 2) = ((183 : ℤ) : ℚ) := by
    rw [show yearLen true 2024 = 366 by decide]; norm_num
  have e2 : jd0 true 2024 1 1 = 2460310 + 1 / 2 := by
    unfold jd0 jdn epoch
    rw [daysToYear_true, dayOfYear_1]; norm_num
  rw [e, h.int (by norm_num), e2] at this
  have e3 : fl (2460310 + 1 / 2 + ((183 : ℤ) : ℚ)) = 2460493 + 1 / 2 := by
    have := h.dyadic (n := 4920987) 1 (by norm_num) (by norm_num)
    convert this using 2 <;> norm_num
  rw [e3] at this
  exact_mod_cast this

/-! ### C16 -/

/-- The month after the month `m`. -/
theorem jd0_nextMonth (g : Bool) (y m : ℤ) (h1 : 1 ≤ m) (h2 : m ≤ 12) :
    (if m + 1 = 13 then jd0 g (y + 1) 1 1 else jd0 g y (m + 1) 1) = jd0 g y m 1 + monthLen g y m := by
  split_ifs with h
  · have e : m = 12 := by omega
    subst e
    unfold jd0 jdn
    rw [dayOfYear_1, daysToYear_succ]
    have h13 := dayOfYear_13 g y 1
    have := dayOfYear_month_succ g y 12 1 (by norm_num)
    rw [show (12 : ℤ) + 1 = 13 by norm_num, h13] at this
    have : (yearLen g y : ℚ) + 1 = dayOfYear g y 12 1 + monthLen g y 12 := by exact_mod_cast this
    push_cast; linarith
  · unfold jd0 jdn
    rw [dayOfYear_month_succ g y m 1 h1]; push_cast; ring

/-- What C16 promises: the first of the month plus the fraction of that month. -/
def fracMonth (fl : ℚ → ℚ) (y : ℤ) (x : ℚ) : ℚ :=
  if x = ⌊x⌋ then jd0 true y ⌊x⌋ 1
  else fl (jd0 true y ⌊x⌋ 1 + fl (monthLen true y ⌊x⌋ * Int.fract x))

/-- C16 for arrays, after broadcasting to the rows `l`. -/
theorem yr_frac_mon_to_jd_array {fl : ℚ → ℚ} (h : FloatLike fl) (ys : List ℤ) (ms : List ℚ) (g : Bool)
    (l : List (ℤ × ℚ)) (hb : bcast2 ys ms = .ok l) (hne : l ≠ [])
    (hx : ∀ r ∈ l, 0 ≤ r.1 ∧ r.1 < 2 ^ 31 - 1 ∧ Repr fl r.2 ∧ 1 ≤ r.2 ∧ r.2 < 13) :
    yrFracMonToJd fl ys ms g = .ok (scalarIfOne (l.map fun r => fracMonth fl r.1 r.2)) := by
  have hfl : ∀ r ∈ l, 1 ≤ ⌊r.2⌋ ∧ ⌊r.2⌋ ≤ 12 := by
    intro r hm
    obtain ⟨-, -, -, h0, h1⟩ := hx r hm
    refine ⟨Int.le_floor.mpr (by exact_mod_cast h0), ?_⟩
    have : (⌊r.2⌋ : ℚ) < 13 := (Int.floor_le _).trans_lt h1
    have : ⌊r.2⌋ < 13 := by exact_mod_cast this
    omega
  have hi32 : ∀ r ∈ l, (Num.flt r.2).toI32 = ⌊r.2⌋ := by
    intro r hm
    have hb := hfl r hm
    have h0 : 0 ≤ r.2 := by linarith [(hx r hm).2.2.2.1]
    show (if -2 ^ 31 ≤ trunc r.2 ∧ trunc r.2 < 2 ^ 31 then trunc r.2 else -2 ^ 31) = ⌊r.2⌋
    simp only [trunc_of_nonneg h0]
    rw [if_pos (by omega)]
  have hfr : ∀ r ∈ l, fl (r.2 - (Num.flt r.2).toI32) = Int.fract r.2 := by
    intro r hm; rw [hi32 r hm]; exact (hx r hm).2.2.1
  have hmask : (l.map fun r => fl (r.2 - (Num.flt r.2).toI32)).map (fun f => decide (f > 0)) =
      l.map fun r => decide (¬ r.2 = (⌊r.2⌋ : ℚ)) := by
    rw [List.map_map]
    apply List.map_congr_left
    intro r hm
    simp only [Function.comp, hfr r hm]
    exact decide_eq_decide.mpr (fract_pos_iff _)
  have hfy : (l.map fun r => fl (r.2 - (Num.flt r.2).toI32)) = l.map fun r => Int.fract r.2 :=
    List.map_congr_left hfr
  have hyi : (l.map fun r => (Num.flt r.2).toI32) = l.map fun r => ⌊r.2⌋ := List.map_congr_left hi32
  unfold yrFracMonToJd
  rw [hb]
  simp only [hmask]
  set p : ℤ × ℚ → Bool := fun r => decide (¬ r.2 = (⌊r.2⌋ : ℚ)) with hp
  by_cases hany : (l.map p).any (· = true) = true
  · have hsel : ∀ v : ℤ × ℚ → ℤ, (((l.map v).zip (l.map p)).filter (·.2)).map (fun q => Num.int q.1) =
        (l.filter p).map fun r => Num.int (v r) := by
      intro v
      have := congrArg (List.map Num.int) (filter_zip_map p v l)
      simpa [List.map_map, Function.comp_def] using this
    rw [if_pos hany, hyi, hfy, filter_zip_map p (fun r => Int.fract r.2) l]
    simp only [List.map_map, zipWith_map_self, Function.comp_def, hsel]
    have hfne : l.filter p ≠ [] := by
      rw [List.any_map, List.any_eq_true] at hany
      obtain ⟨x, hm, hpx⟩ := hany
      intro hc
      have : x ∈ l.filter p := List.mem_filter.mpr ⟨hm, by simpa using hpx⟩
      rw [hc] at this; cases this
    have hsub : ∀ x ∈ l.filter p, x ∈ l := fun x hm => (List.mem_filter.mp hm).1
    have c1 := calToJd_dates h true (l.filter p)
      (fun r => .int (if ⌊r.2⌋ + 1 = 13 then r.1 + 1 else r.1))
      (fun r => .int (if ⌊r.2⌋ + 1 = 13 then 1 else ⌊r.2⌋ + 1))
      (fun r => if ⌊r.2⌋ + 1 = 13 then r.1 + 1 else r.1)
      (fun r => if ⌊r.2⌋ + 1 = 13 then 1 else ⌊r.2⌋ + 1) _ (.inl rfl) hfne
      (fun _ _ => ⟨.inl rfl, .inl rfl⟩) (fun r hm => by
        have h1 := hfl r (hsub r hm)
        have h2 := (hx r (hsub r hm)).1
        have h3 := (hx r (hsub r hm)).2.1
        split_ifs <;> omega)
    have c2 := calToJd_dates h true (l.filter p) (fun r => .int r.1) (fun r => .int ⌊r.2⌋)
      (fun r => r.1) (fun r => ⌊r.2⌋) _ (.inl rfl) hfne
      (fun _ _ => ⟨.inl rfl, .inl rfl⟩) (fun r hm => by
        have h1 := hfl r (hsub r hm)
        have h2 := (hx r (hsub r hm)).1
        have h3 := (hx r (hsub r hm)).2.1
        omega)
    have c3 := calToJd_dates h true l (fun r => .int r.1) (fun r => .int ⌊r.2⌋)
      (fun r => r.1) (fun r => ⌊r.2⌋) _ (.inl rfl) hne
      (fun _ _ => ⟨.inl rfl, .inl rfl⟩) (fun r hm => by
        have h1 := hfl r hm
        have h2 := (hx r hm).1
        have h3 := (hx r hm).2.1
        omega)
    rw [c1, c2, c3]
    simp only [scalarIfOne_toList, subArr, mulArr, addArr, zipWith_map_self]
    rw [maskAssign_filter, zipWith_map_self]
    congr 2
    apply List.map_congr_left
    intro r hm
    have h1 := hfl r hm
    have h2 := (hx r hm).1
    have h3 := (hx r hm).2.1
    have hj := jd0_half h true r.1 ⌊r.2⌋ h2 (by omega) h1.1 h1.2
    have hyl : fl (jd0 true (if ⌊r.2⌋ + 1 = 13 then r.1 + 1 else r.1)
        (if ⌊r.2⌋ + 1 = 13 then 1 else ⌊r.2⌋ + 1) 1 - jd0 true r.1 ⌊r.2⌋ 1) =
          monthLen true r.1 ⌊r.2⌋ := by
      have e := jd0_nextMonth true r.1 ⌊r.2⌋ h1.1 h1.2
      have e' : jd0 true (if ⌊r.2⌋ + 1 = 13 then r.1 + 1 else r.1)
        (if ⌊r.2⌋ + 1 = 13 then 1 else ⌊r.2⌋ + 1) 1 = jd0 true r.1 ⌊r.2⌋ 1 + monthLen true r.1 ⌊r.2⌋ := by
        rw [← e]; split_ifs <;> rfl
      rw [e', add_sub_cancel_left]
      have := monthLen_ge true r.1 ⌊r.2⌋
      have := monthLen_le true r.1 ⌊r.2⌋
      exact h.int (by rw [abs_le]; omega)
    rw [hyl]
    unfold fracMonth
    by_cases hi : r.2 = (⌊r.2⌋ : ℚ)
    · have hpx : p r = false := by simp [hp, ← hi]
      rw [hpx, if_pos hi]; simp [hj.1]
    · have hpx : p r = true := by simp [hp, hi]
      rw [hpx, if_neg hi]; simp
  · rw [if_neg hany]
    have hall : ∀ r ∈ l, r.2 = (⌊r.2⌋ : ℚ) := by
      intro x hm
      by_contra hc
      apply hany
      rw [List.any_map, List.any_eq_true]
      exact ⟨x, hm, by simp [hp, hc]⟩
    have c := calToJd_dates h true l (fun r => .int r.1) (fun r => .flt r.2)
      (fun r => r.1) (fun r => ⌊r.2⌋) _ (.inl rfl) hne
      (fun r hm => ⟨.inl rfl, .inr (by rw [← hall r hm])⟩) (fun r hm => by
        have h1 := hfl r hm
        have h2 := (hx r hm).1
        have h3 := (hx r hm).2.1
        omega)
    rw [c]
    congr 2
    apply List.map_congr_left
    intro r hm
    unfold fracMonth
    rw [if_pos (hall r hm)]

/-- C16, one value in any arithmetic. -/
theorem yr_frac_mon_to_jd_float {fl : ℚ → ℚ} (h : FloatLike fl) (y m : ℤ) (f : ℚ) (g : Bool)
    (hy : 0 ≤ y) (hy2 : y < 2 ^ 31 - 1) (h1 : 1 ≤ m) (h2 : m ≤ 12) (hf : 0 < f) (hf1 : f < 1)
    (hF : fl f = f) :
    yrFracMonToJd fl [y] [(m : ℚ) + f] g =
      .ok (.scalar (fl (jd0 true y m 1 + fl (monthLen true y m * f)))) := by
  have e : ⌊(m : ℚ) + f⌋ = m := by
    rw [Int.floor_eq_iff]; constructor <;> linarith
  have h1' : (1 : ℚ) ≤ m := by exact_mod_cast h1
  have h2' : (m : ℚ) ≤ 12 := by exact_mod_cast h2
  have hfr : Int.fract ((m : ℚ) + f) = f := by rw [Int.fract, e]; ring
  rw [yr_frac_mon_to_jd_array h [y] [(m : ℚ) + f] g [(y, (m : ℚ) + f)] (by simp [bcast2, bdim, stretch])
    (by simp) (by
    intro r hr
    rw [List.mem_singleton] at hr
    subst hr
    refine ⟨hy, hy2, ?_, ?_, ?_⟩
    · unfold Repr; simp only [e, add_sub_cancel_left, hF]
    · simp only []; linarith
    · simp only []; linarith)]
  simp only [List.map_cons, List.map_nil, scalarIfOne]
  unfold fracMonth
  rw [e, hfr, if_neg (by linarith)]

/-- C16 in exact arithmetic. -/
theorem yr_frac_mon_to_jd_exact (y m : ℤ) (f : ℚ) (g : Bool)
    (hy : 0 ≤ y) (hy2 : y < 2 ^ 31 - 1) (h1 : 1 ≤ m) (h2 : m ≤ 12) (hf : 0 ≤ f) (hf1 : f < 1) :
    yrFracMonToJd (fun x => x) [y] [(m : ℚ) + f] g =
      .ok (.scalar (jd0 true y m 1 + monthLen true y m * f)) := by
  rcases hf.lt_or_eq with h | rfl
  · exact yr_frac_mon_to_jd_float FloatLike.id y m f g hy hy2 h1 h2 h hf1 rfl
  · have h1' : (1 : ℚ) ≤ m := by exact_mod_cast h1
    have h2' : (m : ℚ) ≤ 12 := by exact_mod_cast h2
    rw [yr_frac_mon_to_jd_array FloatLike.id [y] [(m : ℚ) + 0] g [(y, (m : ℚ) + 0)]
      (by simp [bcast2, bdim, stretch]) (by simp) (by
      intro r hr
      rw [List.mem_singleton] at hr
      subst hr
      refine ⟨hy, hy2, rfl, ?_, ?_⟩ <;> simp only [] <;> linarith)]
    simp only [List.map_cons, List.map_nil, scalarIfOne, add_zero, mul_zero]
    have : fracMonth (fun x => x) y (m : ℚ) = jd0 true y m 1 := by
      unfold fracMonth; simp only [Int.floor_intCast, if_true]
    rw [this]

/-- Every exception of `cal_to_jd` is a `ValueError`. -/
theorem calToJd_error {fl : ℚ → ℚ} (ys ms : List Num) (ds : List ℚ) (g : Bool) (e : PyErr)
    (he : calToJd fl ys ms ds g = .error e) : ∃ msg, e = .ValueError msg := by
  unfold calToJd at he
  have c : ∀ (l : List Num) (s : String) (e : PyErr), checkInt fl l s = .error e →
      ∃ msg, e = .ValueError msg := by
    intro l s e h
    unfold checkInt at h
    split_ifs at h
    exact ⟨s, by simpa using h.symm⟩
  split at he
  · next h => exact c _ _ _ (h.trans (by rw [Except.error.inj he]))
  split at he
  · next h => exact c _ _ _ (h.trans (by rw [Except.error.inj he]))
  split_ifs at he
  · exact ⟨_, by simpa using he.symm⟩
  · exact ⟨_, by simpa using he.symm⟩
  split at he
  · next h => obtain rfl := Except.error.inj he; exact ⟨_, (bcast3_error h).1⟩
  split_ifs at he
  · exact ⟨_, by simpa using he.symm⟩
  · exact ⟨_, by simpa using he.symm⟩
  · exact ⟨_, by simpa using he.symm⟩

/-- A month out of range is refused. -/
theorem calToJd_bad_month {fl : ℚ → ℚ} (ys ms : List Num) (ds : List ℚ) (g : Bool)
    (hm : ∃ m ∈ ms, m.val > 12 ∨ m.val < 1) (r : Out ℚ) : calToJd fl ys ms ds g ≠ .ok r := by
  intro he
  unfold calToJd at he
  split at he
  · cases he
  split at he
  · cases he
  obtain ⟨m, hm, hm'⟩ := hm
  rw [if_pos] at he
  · cases he
  · simp only [Bool.or_eq_true, List.any_eq_true, decide_eq_true_eq]
    rcases hm' with h | h
    · exact .inl ⟨m, hm, h⟩
    · exact .inr ⟨m, hm, h⟩

/-- C16: the month is refused when it is not in `[1, 13)`, in any arithmetic. -/
theorem yr_frac_mon_to_jd_refuses (fl : ℚ → ℚ) (y : ℤ) (x : ℚ) (g : Bool)
    (hx : x < 1 ∨ 13 ≤ x) : ∃ msg, yrFracMonToJd fl [y] [x] g = .error (.ValueError msg) := by
  have hbad : (Num.flt x).toI32 < 1 ∨ 12 < (Num.flt x).toI32 := by
    show (if -2 ^ 31 ≤ trunc x ∧ trunc x < 2 ^ 31 then trunc x else -2 ^ 31) < 1 ∨
      12 < (if -2 ^ 31 ≤ trunc x ∧ trunc x < 2 ^ 31 then trunc x else -2 ^ 31)
    split_ifs
    · unfold trunc
      split_ifs with h0
      · rcases hx with h1 | h1
        · left; rw [Int.floor_lt]; exact_mod_cast h1
        · right; rw [← Int.add_one_le_iff, Int.le_floor]; norm_num; exact h1
      · left
        have : ⌈x⌉ ≤ 0 := Int.ceil_le.mpr (by push_cast; linarith)
        omega
    · left; norm_num
  suffices H : ∀ r, yrFracMonToJd fl [y] [x] g ≠ .ok r by
    have E : ∀ e, yrFracMonToJd fl [y] [x] g = .error e → ∃ msg, e = .ValueError msg := by
      intro e he
      unfold yrFracMonToJd at he
      split at he
      · next hb => simp [bcast2, bdim, stretch] at hb
      simp only [] at he
      split_ifs at he
      · split at he
        · next h1 => exact calToJd_error _ _ _ _ _ (h1.trans he)
        split at he
        · next h1 => exact calToJd_error _ _ _ _ _ (h1.trans he)
        split at he
        · next h1 => exact calToJd_error _ _ _ _ _ (h1.trans he)
        · cases he
      · exact calToJd_error _ _ _ _ _ he
    cases hc : yrFracMonToJd fl [y] [x] g with
    | ok r => exact absurd hc (H r)
    | error e => obtain ⟨msg, rfl⟩ := E e hc; exact ⟨msg, rfl⟩
  intro r hr
  unfold yrFracMonToJd at hr
  rw [show bcast2 [y] [x] = .ok [(y, x)] by simp [bcast2, bdim, stretch]] at hr
  simp only [List.map_cons, List.map_nil] at hr
  by_cases hc : ([decide (fl (x - ↑(Num.flt x).toI32) > 0)].any fun x => decide (x = true)) = true
  · rw [if_pos hc] at hr
    split at hr
    · cases hr
    split at hr
    · cases hr
    next h2 =>
    refine calToJd_bad_month _ _ _ _ ?_ _ h2
    have hm : decide (fl (x - ↑(Num.flt x).toI32) > 0) = true := by simpa using hc
    refine ⟨.int (Num.flt x).toI32, ?_, ?_⟩
    · simp [hm]
    · simp only [Num.val]
      rcases hbad with h | h
      · right; exact_mod_cast h
      · left; exact_mod_cast h
  · rw [if_neg hc] at hr
    refine calToJd_bad_month _ _ _ _ ⟨.flt x, by simp, ?_⟩ _ hr
    simp only [Num.val]
    rcases hx with h | h
    · exact .inr h
    · left; linarith

/-- C16, the defect: the first of January 2000 of the Julian calendar gets the Gregorian answer. -/
theorem yr_frac_mon_to_jd_ignores_calendar :
    yrFracMonToJd (fun x => x) [2000] [1] false = .ok (.scalar (2451544 + 1 / 2)) ∧
    calToJd (fun x => x) [.int 2000] [.int 1] [1] false = .ok (.scalar (2451557 + 1 / 2)) := by
  constructor <;> decide +kernel

/-- The hypotheses are met: mid December, whose next month is in the next year. -/
example : yrFracMonToJd (fun x => x) [2023] [12 + 1 / 2] true =
    .ok (.scalar (jd0 true 2023 12 1 + 31 * (1 / 2))) := by
  have := yr_frac_mon_to_jd_exact 2023 12 (1 / 2) true (by norm_num) (by norm_num) (by norm_num)
    (by norm_num) (by norm_num) (by norm_num)
  rw [show monthLen true 2023 12 = 31 by decide] at this
  exact_mod_cast this

end Verif

import Verif.Model.Calendar
import Verif.Lemmas.Broadcast

/-!
# C06: calls with arrays are elementwise

Statements compare a call on arrays with the calls on the single elements picked by broadcasting
(`Spec.Fits`, `Spec.pick`).
-/

namespace Verif
open Spec
variable (fl : ℚ → ℚ)

/-- All checks of `cal_to_jd` on one row. -/
def RowGood (g : Bool) (r : Num × Num × ℚ) : Prop :=
  ¬ fl (r.1.val - r.1.toI32) > 0 ∧ ¬ fl (r.2.1.val - r.2.1.toI32) > 0 ∧
  (¬ r.2.1.val > 12 ∧ ¬ r.2.1.val < 1) ∧ (¬ r.2.2 > 31 ∧ ¬ r.2.2 < 1) ∧
  (∀ thirty ∈ [(9 : ℚ), 4, 6, 11], ¬ (r.2.1.val = thirty ∧ r.2.2 > 30)) ∧
  ¬ (isLeapYear1 r.1.toInt g = true ∧ r.2.2 > 29 ∧ r.2.1.val = 2) ∧
  ¬ (isLeapYear1 r.1.toInt g = false ∧ r.2.2 > 28 ∧ r.2.1.val = 2)

theorem calToJd_ok_iff (g : Bool) (ys ms : List Num) (ds : List ℚ) (rows : List (Num × Num × ℚ))
    (hb : bcast3 ys ms ds = .ok rows) (hne : rows ≠ []) (r : Out ℚ) :
    calToJd fl ys ms ds g = .ok r ↔ (∀ x ∈ rows, RowGood fl g x) ∧
      r = scalarIfOne (rows.map fun r => calToJdCore fl r.1.val r.2.1.val r.2.2 g) := by
  obtain ⟨fa, fb, fc⟩ := bcast3_forall hb hne
  have a1 := fa fun y => ¬ fl (y.val - y.toI32) > 0
  have a2 := fb fun y => ¬ fl (y.val - y.toI32) > 0
  have a3 := fb fun y => ¬ y.val > 12 ∧ ¬ y.val < 1
  have a4 := fc fun y => ¬ y > 31 ∧ ¬ y < 1
  unfold calToJd checkInt
  by_cases c1 : ∀ y ∈ ys, ¬ fl (y.val - y.toI32) > 0
  swap
  · rw [if_pos (by simpa using c1)]
    simp only [reduceCtorEq, false_iff]
    rintro ⟨h, -⟩
    exact c1 (a1.mpr fun r hr => (h r hr).1)
  rw [if_neg (by simpa using c1)]
  by_cases c2 : ∀ y ∈ ms, ¬ fl (y.val - y.toI32) > 0
  swap
  · rw [if_pos (by simpa using c2)]
    simp only [reduceCtorEq, false_iff]
    rintro ⟨h, -⟩
    exact c2 (a2.mpr fun r hr => (h r hr).2.1)
  rw [if_neg (by simpa using c2)]
  simp only []
  by_cases c3 : ∀ y ∈ ms, ¬ y.val > 12 ∧ ¬ y.val < 1
  swap
  · rw [if_pos]
    · simp only [reduceCtorEq, false_iff]
      rintro ⟨h, -⟩
      exact c3 (a3.mpr fun r hr => (h r hr).2.2.1)
    · rw [not_forall] at c3
      obtain ⟨y, hy⟩ := c3
      rw [Classical.not_imp, not_and_or, not_not, not_not] at hy
      rw [Bool.or_eq_true, List.any_eq_true, List.any_eq_true]
      rcases hy with ⟨h1, h2 | h2⟩
      · exact .inl ⟨y, h1, decide_eq_true h2⟩
      · exact .inr ⟨y, h1, decide_eq_true h2⟩
  rw [if_neg (by
    rw [Bool.or_eq_true, List.any_eq_true, List.any_eq_true]
    rintro (⟨y, hy, h⟩ | ⟨y, hy, h⟩)
    · exact (c3 y hy).1 (of_decide_eq_true h)
    · exact (c3 y hy).2 (of_decide_eq_true h))]
  by_cases c4 : ∀ y ∈ ds, ¬ y > 31 ∧ ¬ y < 1
  swap
  · rw [if_pos]
    · simp only [reduceCtorEq, false_iff]
      rintro ⟨h, -⟩
      exact c4 (a4.mpr fun r hr => (h r hr).2.2.2.1)
    · rw [not_forall] at c4
      obtain ⟨y, hy⟩ := c4
      rw [Classical.not_imp, not_and_or, not_not, not_not] at hy
      rw [Bool.or_eq_true, List.any_eq_true, List.any_eq_true]
      rcases hy with ⟨h1, h2 | h2⟩
      · exact .inl ⟨y, h1, decide_eq_true h2⟩
      · exact .inr ⟨y, h1, decide_eq_true h2⟩
  rw [if_neg (by
    rw [Bool.or_eq_true, List.any_eq_true, List.any_eq_true]
    rintro (⟨y, hy, h⟩ | ⟨y, hy, h⟩)
    · exact (c4 y hy).1 (of_decide_eq_true h)
    · exact (c4 y hy).2 (of_decide_eq_true h))]
  rw [hb]
  simp only []
  have b1 := a1.mp c1
  have b2 := a2.mp c2
  have b3 := a3.mp c3
  have b4 := a4.mp c4
  split_ifs with d1 d2 d3
  · simp only [reduceCtorEq, false_iff]
    rintro ⟨h, -⟩
    rw [List.any_eq_true] at d1
    obtain ⟨t, ht, d1⟩ := d1
    rw [List.any_eq_true] at d1
    obtain ⟨x, hx, d1⟩ := d1
    simp only [Bool.and_eq_true, decide_eq_true_eq] at d1
    exact (h x hx).2.2.2.2.1 t ht d1
  · simp only [reduceCtorEq, false_iff]
    rintro ⟨h, -⟩
    rw [List.any_eq_true] at d2
    obtain ⟨x, hx, d2⟩ := d2
    simp only [Bool.and_eq_true, decide_eq_true_eq] at d2
    exact (h x hx).2.2.2.2.2.1 d2
  · simp only [reduceCtorEq, false_iff]
    rintro ⟨h, -⟩
    rw [List.any_eq_true] at d3
    obtain ⟨x, hx, d3⟩ := d3
    simp only [Bool.and_eq_true, decide_eq_true_eq, Bool.not_eq_true'] at d3
    exact (h x hx).2.2.2.2.2.2 d3
  · rw [Except.ok.injEq]
    constructor
    · rintro rfl
      refine ⟨fun x hx => ⟨b1 x hx, b2 x hx, b3 x hx, b4 x hx, ?_, ?_, ?_⟩, rfl⟩
      · intro t ht hc
        refine d1 (List.any_eq_true.mpr ⟨t, ht, List.any_eq_true.mpr ⟨x, hx, ?_⟩⟩)
        simp only [Bool.and_eq_true, decide_eq_true_eq]
        exact hc
      · intro hc
        refine d2 (List.any_eq_true.mpr ⟨x, hx, ?_⟩)
        simp only [Bool.and_eq_true, decide_eq_true_eq]
        exact hc
      · intro hc
        refine d3 (List.any_eq_true.mpr ⟨x, hx, ?_⟩)
        simp only [Bool.and_eq_true, decide_eq_true_eq, Bool.not_eq_true']
        exact hc
    · rintro ⟨_, rfl⟩; rfl

theorem bcast3_single {α β γ : Type} (a : α) (b : β) (c : γ) :
    bcast3 [a] [b] [c] = .ok [(a, b, c)] := by
  simp [bcast3, bdim, stretch]

theorem calToJd_single_iff (g : Bool) (y m : Num) (d : ℚ) (r : Out ℚ) :
    calToJd fl [y] [m] [d] g = .ok r ↔ RowGood fl g (y, m, d) ∧
      r = .scalar (calToJdCore fl y.val m.val d g) := by
  rw [calToJd_ok_iff fl g _ _ _ _ (bcast3_single y m d) (by simp)]
  simp [scalarIfOne]

/-- C06: an array call of `cal_to_jd` returns exactly when every one of the single calls does. -/
theorem cal_to_jd_array_accepts (g : Bool) (ys ms : List Num) (ds : List ℚ) (n : ℕ) (hn : 0 < n)
    (hf : Fits n [ys.length, ms.length, ds.length]) :
    (∃ r, calToJd fl ys ms ds g = .ok r) ↔
      ∀ i < n, ∃ y m d r, pick ys i = some y ∧ pick ms i = some m ∧ pick ds i = some d ∧
        calToJd fl [y] [m] [d] g = .ok r := by
  have hb := bcast3_fits hf
  generalize hrows : (stretch n ys).zip ((stretch n ms).zip (stretch n ds)) = rows at hb
  have hl : rows.length = n := by
    rw [← hrows]
    simp [stretch_length n ys (hf.1 _ (by simp)), stretch_length n ms (hf.1 _ (by simp)),
      stretch_length n ds (hf.1 _ (by simp))]
  have hne : rows ≠ [] := by rw [← List.length_pos_iff, hl]; exact hn
  obtain ⟨-, hr⟩ := bcast3_ok hb
  rw [hl] at hr
  constructor
  · rintro ⟨r, h⟩ i hi
    obtain ⟨x, y, z, e, h1, h2, h3⟩ := hr i hi
    have := ((calToJd_ok_iff fl g ys ms ds rows hb hne r).mp h).1 _ (List.mem_of_getElem? e)
    exact ⟨x, y, z, _, h1, h2, h3, (calToJd_single_iff fl g x y z _).mpr ⟨this, rfl⟩⟩
  · intro h
    refine ⟨_, (calToJd_ok_iff fl g ys ms ds rows hb hne _).mpr ⟨fun w hw => ?_, rfl⟩⟩
    obtain ⟨i, hi, rfl⟩ := List.getElem_of_mem hw
    obtain ⟨x, y, z, e, h1, h2, h3⟩ := hr i (by omega)
    obtain ⟨x', y', z', r, h1', h2', h3', hc⟩ := h i (by omega)
    rw [h1, Option.some.injEq] at h1'
    rw [h2, Option.some.injEq] at h2'
    rw [h3, Option.some.injEq] at h3'
    subst h1' h2' h3'
    rw [List.getElem?_eq_getElem hi, Option.some.injEq] at e
    rw [e]
    exact ((calToJd_single_iff fl g x y z r).mp hc).1

/-- C06: and then its results are those of the single calls, in order; a plain scalar is returned
exactly for one element. -/
theorem cal_to_jd_array_values (g : Bool) (ys ms : List Num) (ds : List ℚ) (n : ℕ) (hn : 0 < n)
    (hf : Fits n [ys.length, ms.length, ds.length]) (r : Out ℚ)
    (hr : calToJd fl ys ms ds g = .ok r) :
    r.toList.length = n ∧ (n = 1 ↔ ∃ v, r = .scalar v) ∧
      ∀ i < n, ∃ y m d v, pick ys i = some y ∧ pick ms i = some m ∧ pick ds i = some d ∧
        calToJd fl [y] [m] [d] g = .ok (.scalar v) ∧ r.toList[i]? = some v := by
  have hb := bcast3_fits hf
  generalize hrows : (stretch n ys).zip ((stretch n ms).zip (stretch n ds)) = rows at hb
  have hl : rows.length = n := by
    rw [← hrows]
    simp [stretch_length n ys (hf.1 _ (by simp)), stretch_length n ms (hf.1 _ (by simp)),
      stretch_length n ds (hf.1 _ (by simp))]
  have hne : rows ≠ [] := by rw [← List.length_pos_iff, hl]; exact hn
  obtain ⟨-, hrr⟩ := bcast3_ok hb
  rw [hl] at hrr
  obtain ⟨hg, rfl⟩ := (calToJd_ok_iff fl g ys ms ds rows hb hne r).mp hr
  rw [scalarIfOne_toList]
  refine ⟨by simp [hl], ?_, fun i hi => ?_⟩
  · rw [← hl]
    rcases rows with _ | ⟨a, _ | ⟨b, l⟩⟩ <;> simp [scalarIfOne]
  · obtain ⟨x, y, z, e, h1, h2, h3⟩ := hrr i hi
    refine ⟨x, y, z, _, h1, h2, h3,
      (calToJd_single_iff fl g x y z _).mpr ⟨hg _ (List.mem_of_getElem? e), rfl⟩, ?_⟩
    rw [List.getElem?_map, e]; rfl

/-- C06: arrays that do not broadcast are refused with a `ValueError`. -/
theorem cal_to_jd_array_shape (g : Bool) (ys ms : List Num) (ds : List ℚ)
    (hf : ∀ n, ¬ Fits n [ys.length, ms.length, ds.length]) :
    ∃ msg, calToJd fl ys ms ds g = .error (.ValueError msg) := by
  have hb : bcast3 ys ms ds = .error shapeErr := by
    cases h : bcast3 ys ms ds with
    | ok rows => exact absurd (bcast3_ok h).1 (hf _)
    | error e => rw [(bcast3_error h).1]
  unfold calToJd checkInt
  split_ifs <;> simp only [hb] <;> first | exact ⟨_, rfl⟩ | (split_ifs <;> exact ⟨_, rfl⟩)

/-- Elementwise agreement of a one-argument function with its single calls. -/
def Elementwise {α β : Type} (f : List α → Out β) : Prop :=
  ∀ xs, (f xs).toList.length = xs.length ∧ (xs.length = 1 ↔ ∃ v, f xs = .scalar v) ∧
    ∀ (i : ℕ) (x : α), xs[i]? = some x → ∃ v, f [x] = .scalar v ∧ (f xs).toList[i]? = some v

theorem elementwise_map {α β : Type} (h : α → β) :
    Elementwise fun xs => scalarIfOne (xs.map h) := by
  intro xs
  simp only [scalarIfOne_toList]
  refine ⟨by simp, ?_, fun i x hx => ⟨h x, rfl, by rw [List.getElem?_map, hx]; rfl⟩⟩
  rcases xs with _ | ⟨a, _ | ⟨b, l⟩⟩ <;> simp [scalarIfOne]

/-- C06 for `is_leap_year`. -/
theorem is_leap_year_array (g : Bool) : Elementwise fun ys => isLeapYear ys g :=
  elementwise_map _

/-- C06 for the year, the month and the day of `jd_to_cal`. -/
theorem jd_to_cal_array (g : Bool) :
    Elementwise (fun js => (jdToCal fl js g).1) ∧ Elementwise (fun js => (jdToCal fl js g).2.1) ∧
      Elementwise (fun js => (jdToCal fl js g).2.2) := by
  refine ⟨?_, ?_, ?_⟩ <;> simp only [jdToCal, List.map_map] <;> exact elementwise_map _

/-- C06 for `easter`. -/
theorem easter_array (g : Bool) :
    Elementwise (fun ys => (easter ys g).1) ∧ Elementwise (fun ys => (easter ys g).2) := by
  refine ⟨?_, ?_⟩ <;> simp only [easter, List.map_map] <;> exact elementwise_map _

/-- C06 for `jd_to_day_of_week`. -/
theorem jd_to_day_of_week_array : Elementwise fun js => jdToDayOfWeek fl js :=
  elementwise_map _

/-- C06 for `cal_to_day_of_year`: the single results in order, or the shape error. -/
theorem cal_to_day_of_year_array (g : Bool) (ys ms ds : List Num) (n : ℕ)
    (hf : Fits n [ys.length, ms.length, ds.length]) :
    ∃ r, calToDayOfYear fl ys ms ds g = .ok r ∧ r.toList.length = n ∧
      (n = 1 ↔ ∃ v, r = .scalar v) ∧
      ∀ i < n, ∃ y m d v, pick ys i = some y ∧ pick ms i = some m ∧ pick ds i = some d ∧
        calToDayOfYear fl [y] [m] [d] g = .ok (.scalar v) ∧ r.toList[i]? = some v := by
  have hf' : Fits n [(ys.map Num.toInt).length, (ms.map Num.toInt).length,
      (ds.map Num.toInt).length] := by simpa using hf
  have hb := bcast3_fits hf'
  obtain ⟨-, hr⟩ := bcast3_ok hb
  have hl : ((stretch n (ys.map Num.toInt)).zip
      ((stretch n (ms.map Num.toInt)).zip (stretch n (ds.map Num.toInt)))).length = n := by
    simp [stretch_length n (ys.map Num.toInt) (hf'.1 _ (by simp)),
      stretch_length n (ms.map Num.toInt) (hf'.1 _ (by simp)),
      stretch_length n (ds.map Num.toInt) (hf'.1 _ (by simp))]
  generalize (stretch n (ys.map Num.toInt)).zip
      ((stretch n (ms.map Num.toInt)).zip (stretch n (ds.map Num.toInt))) = rows at *
  rw [hl] at hr
  unfold calToDayOfYear
  rw [hb]
  refine ⟨_, rfl, ?_, ?_, ?_⟩
  · rw [scalarIfOne_toList, List.length_map, hl]
  · rw [← hl]; rcases rows with _ | ⟨a, _ | ⟨b, l⟩⟩ <;> simp [scalarIfOne]
  · intro i hi
    obtain ⟨x, y, z, e, h1, h2, h3⟩ := hr i hi
    have pm : ∀ (l : List Num) (x : ℤ), pick (l.map Num.toInt) i = some x →
        ∃ a, pick l i = some a ∧ a.toInt = x := by
      intro l x h
      unfold pick at h ⊢
      simp only [List.length_map, List.getElem?_map] at h
      split_ifs at h ⊢ <;> simpa using h
    obtain ⟨a, pa, rfl⟩ := pm _ _ h1
    obtain ⟨b, pb, rfl⟩ := pm _ _ h2
    obtain ⟨c, pc, rfl⟩ := pm _ _ h3
    refine ⟨a, b, c, calToDayOfYear1 fl a.toInt b.toInt c.toInt g, pa, pb, pc, ?_, ?_⟩
    · simp [bcast3_single, scalarIfOne]
    · rw [scalarIfOne_toList, List.getElem?_map, e]; rfl

/-- C06 for `day_of_year_to_cal`. -/
theorem day_of_year_to_cal_array (g : Bool) (ys ns : List Num) (n : ℕ)
    (hf : Fits n [ys.length, ns.length]) :
    ∃ r s, dayOfYearToCal fl ys ns g = .ok (r, s) ∧ r.toList.length = n ∧ s.toList.length = n ∧
      (n = 1 ↔ ∃ v, r = .scalar v) ∧ (n = 1 ↔ ∃ v, s = .scalar v) ∧
      ∀ i < n, ∃ y k v w, pick ys i = some y ∧ pick ns i = some k ∧
        dayOfYearToCal fl [y] [k] g = .ok (.scalar v, .scalar w) ∧ r.toList[i]? = some v ∧
        s.toList[i]? = some w := by
  obtain ⟨rows, hb, hl⟩ := bcast2_fits hf
  obtain ⟨-, hr⟩ := bcast2_ok hb
  rw [hl] at hr
  unfold dayOfYearToCal
  rw [hb]
  refine ⟨_, _, rfl, ?_, ?_, ?_, ?_, ?_⟩
  · rw [scalarIfOne_toList, List.length_map, List.length_map, hl]
  · rw [scalarIfOne_toList, List.length_map, List.length_map, hl]
  · rw [← hl]; rcases rows with _ | ⟨a, _ | ⟨b, l⟩⟩ <;> simp [scalarIfOne]
  · rw [← hl]; rcases rows with _ | ⟨a, _ | ⟨b, l⟩⟩ <;> simp [scalarIfOne]
  · intro i hi
    obtain ⟨x, y, e, h1, h2⟩ := hr i hi
    refine ⟨x, y, (dayOfYearToCal1 fl x.toInt y.val g).1, (dayOfYearToCal1 fl x.toInt y.val g).2,
      h1, h2, ?_, ?_, ?_⟩
    · simp [bcast2, bdim, stretch, scalarIfOne]
    · rw [scalarIfOne_toList, List.getElem?_map, List.getElem?_map, e]; rfl
    · rw [scalarIfOne_toList, List.getElem?_map, List.getElem?_map, e]; rfl

/-- C06: arrays that do not broadcast are refused by the day-of-year functions too. -/
theorem day_of_year_array_shape (g : Bool) (ys ms ds : List Num) :
    ((∀ n, ¬ Fits n [ys.length, ms.length, ds.length]) →
      calToDayOfYear fl ys ms ds g = .error shapeErr) ∧
    ((∀ n, ¬ Fits n [ys.length, ms.length]) → dayOfYearToCal fl ys ms g = .error shapeErr) := by
  constructor
  · intro h
    unfold calToDayOfYear
    cases hb : bcast3 (ys.map Num.toInt) (ms.map Num.toInt) (ds.map Num.toInt) with
    | ok rows => exact absurd (bcast3_ok hb).1 (by simpa using h rows.length)
    | error e => simp only [(bcast3_error hb).1]
  · intro h
    unfold dayOfYearToCal
    cases hb : bcast2 ys ms with
    | ok rows => exact absurd (bcast2_ok hb).1 (h _)
    | error e => simp only [(bcast2_error hb).1]

example : Fits 3 [3, 1, 3] ∧ ¬ Fits 3 [3, 2, 3] := by
  constructor
  · exact ⟨by simp, by simp⟩
  · rintro ⟨h, -⟩; have := h 2 (by simp); omega

example (n : ℕ) : ¬ Fits n [2, 3] := by
  rintro ⟨h, h2⟩; have := h 2 (by simp); have := h 3 (by simp); omega

end Verif

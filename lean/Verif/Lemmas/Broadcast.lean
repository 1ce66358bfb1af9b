import Verif.Model.Py
import Verif.Spec.Broadcast

namespace Verif
open Spec

theorem scalarIfOne_toList {α : Type} (l : List α) : (scalarIfOne l).toList = l := by
  rcases l with _ | ⟨a, _ | ⟨b, l⟩⟩ <;> rfl

theorem stretch_length {α : Type} (n : ℕ) (l : List α) (h : l.length = 1 ∨ l.length = n) :
    (stretch n l).length = n := by
  rcases l with _ | ⟨a, _ | ⟨b, l⟩⟩
  · simpa [stretch] using h
  · simp [stretch]
  · have : (a :: b :: l).length = n := h.resolve_left (by simp)
    simpa [stretch] using this

theorem stretch_get {α : Type} (n : ℕ) (l : List α) (i : ℕ) (hi : i < n) :
    (stretch n l)[i]? = pick l i := by
  rcases l with _ | ⟨a, _ | ⟨b, l⟩⟩
  · simp [stretch, pick]
  · simp [stretch, pick, hi]
  · simp [stretch, pick]

theorem bdim_some {a b n : ℕ} : bdim a b = some n ↔ Fits n [a, b] := by
  unfold bdim Fits
  simp only [List.mem_cons, List.not_mem_nil, or_false, forall_eq_or_imp, forall_eq]
  split_ifs with h1 h2 h3 <;> simp <;> omega

theorem bcast2_ok {α β : Type} {a : List α} {b : List β} {rows : List (α × β)}
    (h : bcast2 a b = .ok rows) : Fits rows.length [a.length, b.length] ∧
    ∀ i < rows.length, ∃ x y, rows[i]? = some (x, y) ∧ pick a i = some x ∧ pick b i = some y := by
  unfold bcast2 at h
  split at h
  · cases h
  · rename_i n hn
    rw [bdim_some] at hn
    simp only [Except.ok.injEq] at h
    have l1 := stretch_length n a (hn.1 _ (by simp))
    have l2 := stretch_length n b (hn.1 _ (by simp))
    have hl : rows.length = n := by rw [← h]; simp [l1, l2]
    rw [hl]
    refine ⟨hn, fun i hi => ?_⟩
    refine ⟨(stretch n a)[i], (stretch n b)[i], ?_, ?_, ?_⟩
    · subst h; rw [List.getElem?_eq_getElem (by simp [l1, l2, hi]), List.getElem_zip]
    · rw [← stretch_get n a i hi, List.getElem?_eq_getElem]
    · rw [← stretch_get n b i hi, List.getElem?_eq_getElem]

theorem bcast2_fits {α β : Type} {a : List α} {b : List β} {n : ℕ}
    (h : Fits n [a.length, b.length]) : ∃ rows, bcast2 a b = .ok rows ∧ rows.length = n := by
  unfold bcast2
  rw [bdim_some.mpr h]
  exact ⟨_, rfl, by simp [stretch_length n a (h.1 _ (by simp)), stretch_length n b (h.1 _ (by simp))]⟩

theorem bcast2_error {α β : Type} {a : List α} {b : List β} {e : PyErr}
    (h : bcast2 a b = .error e) : e = shapeErr ∧ ∀ n, ¬ Fits n [a.length, b.length] := by
  refine ⟨?_, fun n hn => ?_⟩
  · unfold bcast2 at h
    split at h <;> cases h; rfl
  · obtain ⟨rows, hr, _⟩ := bcast2_fits hn
    rw [hr] at h; cases h

theorem bcast3_dims {α β γ : Type} {a : List α} {b : List β} {c : List γ} {n : ℕ} :
    (∃ k, bdim a.length b.length = some k ∧ bdim k c.length = some n) ↔
      Fits n [a.length, b.length, c.length] := by
  simp only [bdim_some]
  unfold Fits
  simp only [List.mem_cons, List.not_mem_nil, or_false, forall_eq_or_imp, forall_eq]
  generalize a.length = x
  generalize b.length = y
  generalize c.length = z
  constructor
  · rintro ⟨k, h⟩; omega
  · intro h
    by_cases hx : x = 1
    · exact ⟨y, by omega⟩
    · exact ⟨x, by omega⟩

theorem bcast3_fits {α β γ : Type} {a : List α} {b : List β} {c : List γ} {n : ℕ}
    (h : Fits n [a.length, b.length, c.length]) :
    bcast3 a b c = .ok ((stretch n a).zip ((stretch n b).zip (stretch n c))) := by
  obtain ⟨k, h1, h2⟩ := bcast3_dims.mpr h
  unfold bcast3
  rw [h1]; simp only []; rw [h2]

theorem bcast3_ok {α β γ : Type} {a : List α} {b : List β} {c : List γ} {rows : List (α × β × γ)}
    (h : bcast3 a b c = .ok rows) : Fits rows.length [a.length, b.length, c.length] ∧
    ∀ i < rows.length, ∃ x y z, rows[i]? = some (x, y, z) ∧ pick a i = some x ∧
      pick b i = some y ∧ pick c i = some z := by
  have hn : ∃ n, Fits n [a.length, b.length, c.length] := by
    unfold bcast3 at h
    split at h
    · cases h
    · rename_i k hk
      split at h
      · cases h
      · rename_i n hn
        exact ⟨n, bcast3_dims.mp ⟨k, hk, hn⟩⟩
  obtain ⟨n, hn⟩ := hn
  rw [bcast3_fits hn, Except.ok.injEq] at h
  have l1 := stretch_length n a (hn.1 _ (by simp))
  have l2 := stretch_length n b (hn.1 _ (by simp))
  have l3 := stretch_length n c (hn.1 _ (by simp))
  have hl : rows.length = n := by rw [← h]; simp [l1, l2, l3]
  rw [hl]
  refine ⟨hn, fun i hi => ?_⟩
  refine ⟨(stretch n a)[i], (stretch n b)[i], (stretch n c)[i], ?_, ?_, ?_, ?_⟩
  · subst h; rw [List.getElem?_eq_getElem (by simp [l1, l2, l3, hi]), List.getElem_zip, List.getElem_zip]
  · rw [← stretch_get n a i hi, List.getElem?_eq_getElem]
  · rw [← stretch_get n b i hi, List.getElem?_eq_getElem]
  · rw [← stretch_get n c i hi, List.getElem?_eq_getElem]

theorem bcast3_error {α β γ : Type} {a : List α} {b : List β} {c : List γ} {e : PyErr}
    (h : bcast3 a b c = .error e) :
    e = shapeErr ∧ ∀ n, ¬ Fits n [a.length, b.length, c.length] := by
  refine ⟨?_, fun n hn => ?_⟩
  · unfold bcast3 at h
    split at h
    · cases h; rfl
    · split at h <;> cases h; rfl
  · rw [bcast3_fits hn] at h; cases h

theorem pick_mem {α : Type} {l : List α} {i : ℕ} {x : α} (h : pick l i = some x) : x ∈ l := by
  unfold pick at h
  split_ifs at h
  · exact List.mem_of_getElem? h
  · exact List.mem_of_getElem? h

/-- Every element of an array is used by the broadcast. -/
theorem exists_pick {α : Type} {l : List α} {n : ℕ} (hn : 0 < n) (h : l.length = 1 ∨ l.length = n)
    {x : α} (hx : x ∈ l) : ∃ i < n, pick l i = some x := by
  obtain ⟨i, hi, rfl⟩ := List.getElem_of_mem hx
  unfold pick
  split_ifs with h1
  · have : i = 0 := by omega
    subst this
    exact ⟨0, hn, List.getElem?_eq_getElem _⟩
  · exact ⟨i, by omega, List.getElem?_eq_getElem _⟩

/-- A check over each whole array is a check over the rows. -/
theorem bcast3_forall {α β γ : Type} {a : List α} {b : List β} {c : List γ}
    {rows : List (α × β × γ)} (h : bcast3 a b c = .ok rows) (hne : rows ≠ []) :
    (∀ p : α → Prop, (∀ x ∈ a, p x) ↔ ∀ r ∈ rows, p r.1) ∧
    (∀ p : β → Prop, (∀ x ∈ b, p x) ↔ ∀ r ∈ rows, p r.2.1) ∧
    (∀ p : γ → Prop, (∀ x ∈ c, p x) ↔ ∀ r ∈ rows, p r.2.2) := by
  obtain ⟨hf, hr⟩ := bcast3_ok h
  have hpos : 0 < rows.length := List.length_pos_iff.mpr hne
  have mem : ∀ r ∈ rows, r.1 ∈ a ∧ r.2.1 ∈ b ∧ r.2.2 ∈ c := by
    intro r hm
    obtain ⟨i, hi, rfl⟩ := List.getElem_of_mem hm
    obtain ⟨x, y, z, e, h1, h2, h3⟩ := hr i hi
    rw [List.getElem?_eq_getElem hi, Option.some.injEq] at e
    rw [e]
    exact ⟨pick_mem h1, pick_mem h2, pick_mem h3⟩
  have key : ∀ i < rows.length, ∃ r ∈ rows, pick a i = some r.1 ∧ pick b i = some r.2.1 ∧
      pick c i = some r.2.2 := by
    intro i hi
    obtain ⟨x, y, z, e, h1, h2, h3⟩ := hr i hi
    exact ⟨(x, y, z), List.mem_of_getElem? e, h1, h2, h3⟩
  refine ⟨fun p => ⟨fun hp r hm => hp _ (mem r hm).1, fun hp x hx => ?_⟩,
    fun p => ⟨fun hp r hm => hp _ (mem r hm).2.1, fun hp x hx => ?_⟩,
    fun p => ⟨fun hp r hm => hp _ (mem r hm).2.2, fun hp x hx => ?_⟩⟩
  · obtain ⟨i, hi, e⟩ := exists_pick hpos (hf.1 _ (by simp)) hx
    obtain ⟨r, hm, e1, -⟩ := key i hi
    rw [e, Option.some.injEq] at e1; rw [e1]; exact hp r hm
  · obtain ⟨i, hi, e⟩ := exists_pick hpos (hf.1 _ (by simp)) hx
    obtain ⟨r, hm, -, e1, -⟩ := key i hi
    rw [e, Option.some.injEq] at e1; rw [e1]; exact hp r hm
  · obtain ⟨i, hi, e⟩ := exists_pick hpos (hf.1 _ (by simp)) hx
    obtain ⟨r, hm, -, -, e1⟩ := key i hi
    rw [e, Option.some.injEq] at e1; rw [e1]; exact hp r hm

end Verif

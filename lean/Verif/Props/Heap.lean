import Verif.Model.Heap
import Mathlib.Data.List.Perm.Basic
import Mathlib.Data.List.Nodup
import Mathlib.Tactic.Linarith

/-!
# C66: the task queue is a priority queue
-/

namespace Verif

variable {α K : Type} [Inhabited α] [LinearOrder K]

/-- The heap invariant: no item is smaller than its parent. -/
def IsHeap (key : α → K) (h : List α) : Prop :=
  ∀ i, 0 < i → i < h.length → key h[(i - 1) / 2]! ≤ key h[i]!

theorem get_pos (h : List α) (i : ℕ) (hi : i < h.length) : h[i]! = h[i] := by simp [hi]

theorem get_neg (h : List α) (i : ℕ) (hi : ¬ i < h.length) : h[i]! = default := by
  rw [List.getElem!_eq_getElem?_getD, List.getElem?_eq_none (by omega)]; rfl

theorem get_set (h : List α) (i j : ℕ) (a : α) (hi : i < h.length) :
    (h.set i a)[j]! = if i = j then a else h[j]! := by
  by_cases hj : j < h.length
  · rw [get_pos _ _ (by simpa using hj), List.getElem_set, get_pos _ _ hj]
  · rw [get_neg _ _ (by simpa using hj), get_neg _ _ hj, if_neg (by omega)]

/-- Moving an item into the hole and the hole to where it was, does not change the items. -/
theorem hole_perm (h : List α) (i j : ℕ) (a : α) (hi : i < h.length) (hj : j < h.length) (hij : i ≠ j) :
    ((h.set i h[j]!).set j a).Perm (h.set i a) := by
  have e : (h.set i h[j]!).set j a =
      ((h.set i a).set i (h.set i a)[j]!).set j (h.set i a)[i]! := by
    rw [get_set _ _ _ _ hi, get_set _ _ _ _ hi, if_pos rfl, if_neg hij, List.set_set]
  rw [e]
  have h1 : i < (h.set i a).length := by simpa using hi
  have h2 : j < (h.set i a).length := by simpa using hj
  rw [get_pos _ _ h1, get_pos _ _ h2]
  exact List.set_set_perm h1 h2

theorem siftdown_length (key : α → K) (x : α) : ∀ (pos : ℕ) (h : List α),
    (siftdown key x h pos).length = h.length := by
  intro pos
  induction pos using Nat.strong_induction_on with
  | _ pos ih =>
    intro h
    unfold siftdown
    dsimp only
    split_ifs with h0 h1
    · rw [ih _ (by omega), List.length_set]
    · rw [List.length_set]
    · rw [List.length_set]

theorem siftdown_perm (key : α → K) (x : α) : ∀ (pos : ℕ) (h : List α), pos < h.length →
    (siftdown key x h pos).Perm (h.set pos x) := by
  intro pos
  induction pos using Nat.strong_induction_on with
  | _ pos ih =>
    intro h hp
    unfold siftdown
    dsimp only
    split_ifs with h0 h1
    · refine (ih _ (by omega) _ (by rw [List.length_set]; omega)).trans ?_
      exact hole_perm h pos _ x hp (by omega) (by omega)
    · exact .refl _
    · exact .refl _

/-- Sifting restores the invariant, if it only fails between the new item and its parent. -/
theorem siftdown_heap (key : α → K) (x : α) : ∀ (pos : ℕ) (h : List α), pos < h.length →
    (∀ i, 0 < i → i < h.length → i ≠ pos → (i - 1) / 2 ≠ pos → key h[(i - 1) / 2]! ≤ key h[i]!) →
    (∀ i, 0 < i → i < h.length → (i - 1) / 2 = pos → key x ≤ key h[i]!) →
    (∀ i, 0 < i → i < h.length → (i - 1) / 2 = pos → 0 < pos → key h[(pos - 1) / 2]! ≤ key h[i]!) →
    IsHeap key (siftdown key x h pos) := by
  intro pos
  induction pos using Nat.strong_induction_on with
  | _ pos ih =>
    intro h hp a b c
    unfold siftdown
    dsimp only
    split_ifs with h0 h1
    · have hq : (pos - 1) / 2 < pos := by omega
      refine ih _ hq _ (by rw [List.length_set]; omega) ?_ ?_ ?_
      · intro i i0 i1 i2 i3
        rw [List.length_set] at i1
        rw [get_set _ _ _ _ hp, get_set _ _ _ _ hp]
        by_cases e1 : pos = i
        · exact absurd (by rw [← e1]) i3
        rw [if_neg e1]
        by_cases e2 : pos = (i - 1) / 2
        · rw [if_pos e2]; exact c i i0 i1 e2.symm h0
        · rw [if_neg e2]; exact a i i0 i1 (Ne.symm e1) (Ne.symm e2)
      · intro i i0 i1 i2
        rw [List.length_set] at i1
        rw [get_set _ _ _ _ hp]
        by_cases e1 : pos = i
        · rw [if_pos e1]; exact h1.le
        · rw [if_neg e1]
          have := a i i0 i1 (Ne.symm e1) (by omega)
          rw [i2] at this
          exact h1.le.trans this
      · intro i i0 i1 i2 i3
        rw [List.length_set] at i1
        rw [get_set _ _ _ _ hp, get_set _ _ _ _ hp, if_neg (by omega)]
        have g := a ((pos - 1) / 2) i3 (by omega) (by omega) (by omega)
        by_cases e1 : pos = i
        · rw [if_pos e1]; exact g
        · rw [if_neg e1]
          have := a i i0 i1 (Ne.symm e1) (by omega)
          rw [i2] at this
          exact g.trans this
    · intro i i0 i1
      rw [List.length_set] at i1
      rw [get_set _ _ _ _ hp, get_set _ _ _ _ hp]
      by_cases e1 : pos = i
      · rw [if_pos e1, if_neg (by omega), ← e1]; exact not_lt.mp h1
      rw [if_neg e1]
      by_cases e2 : pos = (i - 1) / 2
      · rw [if_pos e2]; exact b i i0 i1 e2.symm
      · rw [if_neg e2]; exact a i i0 i1 (Ne.symm e1) (Ne.symm e2)
    · intro i i0 i1
      rw [List.length_set] at i1
      rw [get_set _ _ _ _ hp, get_set _ _ _ _ hp]
      rw [if_neg (by omega : pos ≠ i)]
      by_cases e2 : pos = (i - 1) / 2
      · rw [if_pos e2]; exact b i i0 i1 e2.symm
      · rw [if_neg e2]; exact a i i0 i1 (by omega) (Ne.symm e2)

theorem siftupLoop_spec (key : α → K) : ∀ (n : ℕ) (h : List α) (pos : ℕ), n = h.length - pos → pos < h.length →
    (∀ i, 0 < i → i < h.length → i ≠ pos → (i - 1) / 2 ≠ pos → key h[(i - 1) / 2]! ≤ key h[i]!) →
    (∀ i, 0 < i → i < h.length → (i - 1) / 2 = pos → 0 < pos → key h[(pos - 1) / 2]! ≤ key h[i]!) →
    ∀ h' p', siftupLoop key h pos = (h', p') →
      h'.length = h.length ∧ p' < h'.length ∧ h'.length ≤ 2 * p' + 1 ∧
      (∀ i, 0 < i → i < h'.length → i ≠ p' → key h'[(i - 1) / 2]! ≤ key h'[i]!) ∧
      ∀ x, (h'.set p' x).Perm (h.set pos x) := by
  intro n
  induction n using Nat.strong_induction_on with
  | _ n ih =>
    intro h pos hn hp a c h' p' e
    unfold siftupLoop at e
    dsimp only at e
    by_cases h0 : 2 * pos + 1 < h.length
    · rw [dif_pos h0] at e
      set ch := if 2 * pos + 1 + 1 < h.length ∧ ¬ key h[2 * pos + 1]! < key h[2 * pos + 1 + 1]! then
        2 * pos + 1 + 1 else 2 * pos + 1 with hch
      have c1 : ch < h.length ∧ (ch - 1) / 2 = pos ∧ pos < ch := by
        rw [hch]; split_ifs with hc
        · omega
        · omega
      have c2 : ∀ i, 0 < i → i < h.length → (i - 1) / 2 = pos → key h[ch]! ≤ key h[i]! := by
        intro i i0 i1 i2
        have : i = 2 * pos + 1 ∨ i = 2 * pos + 1 + 1 := by omega
        by_cases hc : 2 * pos + 1 + 1 < h.length ∧ ¬ key h[2 * pos + 1]! < key h[2 * pos + 1 + 1]!
        · rw [hch, if_pos hc]
          rcases this with rfl | rfl
          · exact not_lt.mp hc.2
          · exact le_refl _
        · rw [hch, if_neg hc]
          rcases this with rfl | rfl
          · exact le_refl _
          · have : key h[2 * pos + 1]! < key h[2 * pos + 1 + 1]! := by
              by_contra hh; exact hc ⟨i1, hh⟩
            exact this.le
      obtain ⟨r1, r2, r3, r4, r5⟩ := ih (h.length - ch) (by omega) (h.set pos h[ch]!) ch
        (by rw [List.length_set]) (by rw [List.length_set]; exact c1.1) (by
          intro i i0 i1 i2 i3
          rw [List.length_set] at i1
          rw [get_set _ _ _ _ hp, get_set _ _ _ _ hp]
          by_cases e1 : pos = i
          · rw [if_pos e1, if_neg (by omega), ← e1]
            exact c ch (by omega) c1.1 c1.2.1 (by omega)
          rw [if_neg e1]
          by_cases e2 : pos = (i - 1) / 2
          · rw [if_pos e2]; exact c2 i i0 i1 e2.symm
          · rw [if_neg e2]; exact a i i0 i1 (Ne.symm e1) (Ne.symm e2)) (by
          intro i i0 i1 i2 i3
          rw [List.length_set] at i1
          rw [get_set _ _ _ _ hp, get_set _ _ _ _ hp, if_pos c1.2.1.symm, if_neg (by omega)]
          have := a i i0 i1 (by omega) (by omega)
          rwa [i2] at this) h' p' e
      rw [List.length_set] at r1
      exact ⟨r1, r2, r3, r4, fun x => (r5 x).trans (hole_perm h pos ch x hp c1.1 (by omega))⟩
    · rw [dif_neg h0] at e
      cases e
      exact ⟨rfl, hp, by omega, fun i i0 i1 i2 => a i i0 i1 i2 (by omega), fun x => .refl _⟩

theorem siftup_spec (key : α → K) (h : List α) (h0 : h ≠ [])
    (a : ∀ i, 0 < i → i < h.length → (i - 1) / 2 ≠ 0 → key h[(i - 1) / 2]! ≤ key h[i]!) :
    (siftup key h).Perm h ∧ IsHeap key (siftup key h) := by
  have hl : 0 < h.length := List.length_pos_iff.mpr h0
  unfold siftup
  obtain ⟨h', p', e⟩ : ∃ h' p', siftupLoop key h 0 = (h', p') := ⟨_, _, rfl⟩
  simp only [e]
  obtain ⟨r1, r2, r3, r4, r5⟩ := siftupLoop_spec key _ h 0 rfl hl (fun i i0 i1 _ i3 => a i i0 i1 i3)
    (fun i _ _ _ h => absurd h (lt_irrefl _)) h' p' e
  have l2 : p' < (h'.set p' h[0]!).length := by rw [List.length_set]; exact r2
  constructor
  · refine (siftdown_perm key _ _ _ l2).trans ?_
    rw [List.set_set]
    refine (r5 _).trans ?_
    rw [get_pos h 0 hl, List.set_getElem_self]
  · refine siftdown_heap key _ _ _ l2 ?_ ?_ ?_
    · intro i i0 i1 i2 i3
      rw [List.length_set] at i1
      rw [get_set _ _ _ _ r2, get_set _ _ _ _ r2, if_neg (Ne.symm i2), if_neg (Ne.symm i3)]
      exact r4 i i0 i1 i2
    · intro i i0 i1 i2; rw [List.length_set] at i1; omega
    · intro i i0 i1 i2; rw [List.length_set] at i1; omega

theorem heap_root (key : α → K) (h : List α) (hh : IsHeap key h) : ∀ i, i < h.length → key h[0]! ≤ key h[i]! := by
  intro i
  induction i using Nat.strong_induction_on with
  | _ i ih =>
    intro hi
    rcases Nat.eq_zero_or_pos i with rfl | h0
    · exact le_refl _
    · exact (ih _ (by omega) (by omega)).trans (hh i h0 hi)

/-- C66: pushing adds the item to the queue and keeps the invariant. -/
theorem heappush_spec (key : α → K) (h : List α) (x : α) (hh : IsHeap key h) :
    (heappush key h x).Perm (x :: h) ∧ IsHeap key (heappush key h x) := by
  unfold heappush
  have hl : h.length < (h ++ [x]).length := by simp
  have g : ∀ i, i < h.length → (h ++ [x])[i]! = h[i]! := by
    intro i hi
    rw [get_pos _ _ (by simp; omega), get_pos _ _ hi, List.getElem_append_left hi]
  constructor
  · refine (siftdown_perm key _ _ _ hl).trans ?_
    rw [List.set_append_right _ _ (le_refl _)]
    simp only [Nat.sub_self, List.set_cons_zero]
    exact List.perm_append_comm
  · refine siftdown_heap key _ _ _ hl ?_ ?_ ?_
    · intro i i0 i1 i2 i3
      simp only [List.length_append, List.length_singleton] at i1
      rw [g _ (by omega), g _ (by omega)]
      exact hh i i0 (by omega)
    · intro i i0 i1 i2; simp only [List.length_append, List.length_singleton] at i1; omega
    · intro i i0 i1 i2; simp only [List.length_append, List.length_singleton] at i1; omega

/-- C66: popping fails exactly on the empty queue; otherwise it takes away an item which is minimal, and
keeps the invariant. -/
theorem heappop_spec (key : α → K) (h : List α) (hh : IsHeap key h) :
    (h = [] ∧ heappop key h = none) ∨
    ∃ x h', heappop key h = some (x, h') ∧ h.Perm (x :: h') ∧ (∀ y ∈ h', key x ≤ key y) ∧ IsHeap key h' := by
  rcases List.eq_nil_or_concat h with rfl | ⟨l, z, rfl⟩
  · exact .inl ⟨rfl, rfl⟩
  right
  unfold heappop
  simp only [List.concat_eq_append, List.getLast?_append, List.getLast?_singleton, Option.some_or,
    List.dropLast_concat] at hh ⊢
  by_cases hl : l = []
  · subst hl
    exact ⟨z, [], by simp, by simp, by simp, fun i _ h => absurd h (by simp)⟩
  · rw [if_neg hl]
    obtain ⟨a, t, rfl⟩ := List.exists_cons_of_ne_nil hl
    have e0 : (a :: t).set 0 z = z :: t := rfl
    have g : ∀ i, i < (a :: t).length → (a :: t ++ [z])[i]! = (a :: t)[i]! := by
      intro i hi
      rw [get_pos _ _ (by simp at hi ⊢; omega), get_pos _ _ hi, List.getElem_append_left hi]
    have g2 : ∀ i, 0 < i → (z :: t)[i]! = (a :: t)[i]! := by
      intro i hi
      obtain ⟨j, rfl⟩ := Nat.exists_eq_succ_of_ne_zero hi.ne'
      rfl
    obtain ⟨p, q⟩ := siftup_spec key (z :: t) (by simp) (by
      intro i i0 i1 i2
      rw [g2 _ (by omega), g2 _ i0]
      have := hh i i0 (by simp at i1 ⊢; omega)
      rwa [g _ (by simp at i1 ⊢; omega), g _ (by simpa using i1)] at this)
    refine ⟨a, siftup key (z :: t), rfl, ?_, ?_, q⟩
    · refine List.Perm.trans ?_ (p.symm.cons a)
      rw [List.cons_append]
      exact List.perm_append_comm.cons a
    · intro y hy
      have hy : y ∈ a :: t ++ [z] := by
        have := p.mem_iff.mp hy
        simp only [List.mem_cons, List.mem_append, List.not_mem_nil, or_false] at this ⊢
        tauto
      obtain ⟨i, hi, rfl⟩ := List.getElem_of_mem hy
      have := heap_root key _ hh i hi
      rw [get_pos _ _ hi] at this
      exact this

/-- Pop until the queue is empty. -/
def drain (key : α → K) : ℕ → List α → List α
  | 0, _ => []
  | n + 1, h => match heappop key h with
    | none => []
    | some (x, h') => x :: drain key n h'

theorem drain_spec (key : α → K) : ∀ (n : ℕ) (h : List α), IsHeap key h → h.length ≤ n →
    (drain key n h).Perm h ∧ (drain key n h).Pairwise fun a b => key a ≤ key b := by
  intro n
  induction n with
  | zero =>
    intro h hh hn
    rw [List.length_eq_zero_iff.mp (by omega : h.length = 0)]
    exact ⟨.refl _, .nil⟩
  | succ n ih =>
    intro h hh hn
    rcases heappop_spec key h hh with ⟨rfl, e⟩ | ⟨x, h', e, p, m, i⟩
    · unfold drain; rw [e]; exact ⟨.refl _, .nil⟩
    · have l := p.length_eq
      obtain ⟨p', s⟩ := ih h' i (by simp at l; omega)
      unfold drain
      rw [e]
      exact ⟨(p'.cons x).trans p.symm, List.pairwise_cons.mpr ⟨fun y hy => m y (p'.mem_iff.mp hy), s⟩⟩

theorem pushAll_spec (key : α → K) : ∀ (l h : List α), IsHeap key h →
    (l.foldl (heappush key) h).Perm (l ++ h) ∧ IsHeap key (l.foldl (heappush key) h) := by
  intro l
  induction l with
  | nil => intro h hh; exact ⟨.refl _, hh⟩
  | cons a l ih =>
    intro h hh
    obtain ⟨p, i⟩ := heappush_spec key h a hh
    obtain ⟨p', i'⟩ := ih _ i
    refine ⟨p'.trans ?_, i'⟩
    exact (p.append_left l).trans List.perm_middle

/-- C66: whatever is pushed comes out once each, in the order of the keys. -/
theorem heap_sorts (key : α → K) (l : List α) :
    (drain key l.length (l.foldl (heappush key) [])).Perm l ∧
    (drain key l.length (l.foldl (heappush key) [])).Pairwise fun a b => key a ≤ key b := by
  obtain ⟨p, i⟩ := pushAll_spec key l [] (fun i _ h => absurd h (by simp))
  rw [List.append_nil] at p
  obtain ⟨q, s⟩ := drain_spec key l.length _ i p.length_eq.le
  exact ⟨q.trans p, s⟩

/-- C66: but events of the same time do not come out in the order in which they were pushed. -/
theorem heap_unstable : drain (Prod.fst : ℕ × ℕ → ℕ) 4 ([(0, 1), (0, 2), (0, 3), (0, 4)].foldl (heappush Prod.fst) []) =
    [(0, 1), (0, 3), (0, 2), (0, 4)] := by
  simp [drain, heappop, heappush, siftup, siftupLoop, siftdown]

end Verif

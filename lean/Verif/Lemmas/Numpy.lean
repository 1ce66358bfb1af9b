import Verif.Model.Numpy
import Verif.Lemmas.Broadcast

namespace Verif
open Real Spec

/-! ### One array, read back as a function of its elements -/

theorem np1_sio {α β γ : Type} (l : List α) (f : α → β) (g : β → γ) :
    np1 g (scalarIfOne (l.map f)) = scalarIfOne (l.map fun x => g (f x)) := by
  rcases l with _ | ⟨a, _ | ⟨b, l⟩⟩ <;> simp [scalarIfOne, np1]

theorem zip_map_same {α β γ : Type} (l : List α) (f : α → β) (h : α → γ) :
    (l.map f).zip (l.map h) = l.map fun x => (f x, h x) := by
  induction l with
  | nil => rfl
  | cons a l ih => simp [ih]

theorem stretch_self {α : Type} (l : List α) : stretch l.length l = l := by
  rcases l with _ | ⟨a, _ | ⟨b, l⟩⟩ <;> simp [stretch]

theorem np2_sio {α β γ δ : Type} (l : List α) (f : α → β) (h : α → γ) (g : β → γ → δ) :
    np2 g (scalarIfOne (l.map f)) (scalarIfOne (l.map h)) = .ok (scalarIfOne (l.map fun x => g (f x) (h x))) := by
  rcases l with _ | ⟨a, _ | ⟨b, l⟩⟩
  · simp [scalarIfOne, np2, bcast2, bdim, stretch, bind, Except.bind]
  · simp [scalarIfOne, np2]
  · have e1 := stretch_self ((a :: b :: l).map f)
    have e2 := stretch_self ((a :: b :: l).map h)
    have e3 := zip_map_same (a :: b :: l) f h
    simp only [List.length_map] at e1 e2
    simp only [List.map_cons, scalarIfOne, np2, bcast2, bdim, List.length_cons, List.length_map, if_true, bind,
      Except.bind]
    simp only [List.map_cons, List.length_cons] at e1 e2 e3
    rw [e1, e2, e3]
    simp

theorem np1_scalar {α β : Type} (g : α → β) (a : α) : np1 g (.scalar a) = .scalar (g a) := rfl

theorem np2_scalar_right {α β γ : Type} (g : α → β → γ) (x : Out α) (b : β) :
    np2 g x (.scalar b) = .ok (np1 (fun a => g a b) x) := by
  cases x <;> rfl

theorem np2_scalar_left {α β γ : Type} (g : α → β → γ) (a : α) (y : Out β) :
    np2 g (.scalar a) y = .ok (np1 (g a) y) := by
  cases y <;> rfl

theorem npScalarIfOne_sio {α : Type} (l : List α) : npScalarIfOne (scalarIfOne l) = scalarIfOne l := by
  rw [npScalarIfOne, scalarIfOne_toList]

theorem npPoly_sio {α : Type} (l : List α) (f : α → ℝ) (c : ℝ) (cs : List ℝ) :
    npPoly (scalarIfOne (l.map f)) (c :: cs) = .ok (scalarIfOne (l.map fun x => polyR (c :: cs) (f x))) := by
  induction cs generalizing c with
  | nil => simp only [npPoly, np1_sio, polyR, horner, mul_zero, add_zero]
  | cons d cs ih =>
    simp only [npPoly, ih, bind, Except.bind, np2_sio, np1_sio, polyR, horner]

/-! ### Several arrays -/

theorem pick_map {α β : Type} (l : List α) (g : α → β) (i : ℕ) : pick (l.map g) i = (pick l i).map g := by
  unfold pick
  rw [List.length_map]
  split_ifs <;> simp

theorem Spec.Rep.scalar {α : Type} (n : ℕ) (a : α) : Rep n 0 (.scalar a) fun _ => a := ⟨rfl, fun _ _ => rfl⟩

theorem Spec.Rep.np1 {α β : Type} {n k : ℕ} {x : Out α} {f : ℕ → α} (h : Rep n k x f) (g : α → β) :
    Rep n k (np1 g x) fun i => g (f i) := by
  cases x with
  | scalar a => exact ⟨h.len, fun i hi => by have := h.get i hi; simp only [Verif.np1, entry, Option.some.injEq] at this ⊢; rw [this]⟩
  | arr l =>
    refine ⟨⟨by rw [List.length_map]; exact h.len.1, h.len.2⟩, fun i hi => ?_⟩
    have := h.get i hi
    simp only [entry] at this
    simp only [Verif.np1, entry, pick_map, this, Option.map_some]

theorem Spec.Rep.np2 {α β γ : Type} {n k m : ℕ} {x : Out α} {y : Out β} {f : ℕ → α} {h : ℕ → β} (hn : 0 < n)
    (hx : Rep n k x f) (hy : Rep n m y h) (g : α → β → γ) :
    ∃ z, np2 g x y = .ok z ∧ Rep n (max k m) z fun i => g (f i) (h i) := by
  cases x with
  | scalar a =>
    refine ⟨_, np2_scalar_left g a y, ?_⟩
    have hk : k = 0 := hx.len
    have := hy.np1 (g a)
    rw [hk, Nat.zero_max]
    refine ⟨this.len, fun i hi => ?_⟩
    have e : a = f i := Option.some.inj (hx.get i hi)
    have := this.get i hi
    rw [← e]; exact this
  | arr l =>
    cases y with
    | scalar b =>
      refine ⟨_, np2_scalar_right g (.arr l) b, ?_⟩
      have hm : m = 0 := hy.len
      have := hx.np1 (fun a => g a b)
      rw [hm, Nat.max_zero]
      refine ⟨this.len, fun i hi => ?_⟩
      have e : b = h i := Option.some.inj (hy.get i hi)
      have := this.get i hi
      rw [← e]; exact this
    | arr l' =>
      obtain ⟨l1, l2⟩ := hx.len
      obtain ⟨m1, m2⟩ := hy.len
      have hfit : Fits (max k m) [l.length, l'.length] := by
        rw [l1, m1]
        refine ⟨?_, ?_⟩ <;> simp only [List.mem_cons, List.not_mem_nil, or_false, forall_eq_or_imp, forall_eq] <;> omega
      obtain ⟨rows, hr, hlen⟩ := bcast2_fits hfit
      obtain ⟨_, hget⟩ := bcast2_ok hr
      refine ⟨.arr (rows.map fun r => g r.1 r.2), by simp [Verif.np2, hr, bind, Except.bind], ?_⟩
      refine ⟨⟨by rw [List.length_map, hlen], by omega⟩, fun i hi => ?_⟩
      have fi : pick l i = some (f i) := hx.get i hi
      have hi' : pick l' i = some (h i) := hy.get i hi
      simp only [entry, pick_map]
      by_cases hi2 : i < rows.length
      · obtain ⟨u, v, e1, e2, e3⟩ := hget i hi2
        rw [fi] at e2; rw [hi'] at e3
        have : pick rows i = some (u, v) := by
          rcases rows with _ | ⟨r, _ | ⟨s, rs⟩⟩
          · simp at hi2
          · have : i = 0 := by simpa using hi2
            subst this; simpa [pick] using e1
          · simpa [pick] using e1
        rw [this]; simp only [Option.map_some]
        cases e2; cases e3; rfl
      · have : rows.length = 1 := by omega
        obtain ⟨r, rfl⟩ := List.length_eq_one_iff.mp this
        obtain ⟨u, v, e1, e2, e3⟩ := hget 0 (by simp)
        have k1 : k = 1 := by simp at hlen; omega
        have k2 : m = 1 := by simp at hlen; omega
        obtain ⟨a, rfl⟩ := List.length_eq_one_iff.mp (l1.trans k1)
        obtain ⟨b, rfl⟩ := List.length_eq_one_iff.mp (m1.trans k2)
        simp only [pick, List.length_singleton, if_true, List.getElem?_cons_zero, Option.some.injEq] at fi hi' e1 e2 e3
        rw [e1, ← fi, ← hi', ← e2, ← e3]; rfl

end Verif

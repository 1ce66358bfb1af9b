import Verif.Model.Cgi

/-!
# `int` reads back what `str` writes
-/

namespace Verif

theorem intDigits_digits {l : List Char} (h : ∀ c ∈ l, c.isDigit = true) (acc : ℕ) :
    intDigits true acc l = some (Nat.ofDigitChars 10 l acc) := by
  induction l generalizing acc with
  | nil => rfl
  | cons c l ih =>
    rw [intDigits, if_pos (h c List.mem_cons_self), ih (fun d hd => h d (List.mem_cons_of_mem _ hd)),
      Nat.ofDigitChars_cons, Nat.mul_comm]

theorem intDigits_toDigits (n : ℕ) : intDigits false 0 (Nat.toDigits 10 n) = some n := by
  have hd : ∀ c ∈ Nat.toDigits 10 n, c.isDigit = true := fun c hc =>
    Nat.isDigit_of_mem_toDigits (by norm_num) (by norm_num) hc
  have hv := Nat.ofDigitChars_ten_toDigits (n := n)
  have hn := Nat.toDigits_ne_nil (n := n) (b := 10)
  cases hl : Nat.toDigits 10 n with
  | nil => exact absurd hl hn
  | cons c l =>
    rw [hl] at hd hv
    rw [intDigits, if_pos (hd c List.mem_cons_self), intDigits_digits (fun d h => hd d (List.mem_cons_of_mem _ h))]
    rw [Nat.ofDigitChars_cons] at hv
    rw [Nat.mul_comm, hv]

theorem strip_of_ends {p : Char → Bool} {l : List Char} (h : ∀ c ∈ l, p c = false) : l.dropWhile p = l := by
  cases l with
  | nil => rfl
  | cons c l => rw [List.dropWhile_cons_of_neg]; rw [h c List.mem_cons_self]; simp

theorem digit_not_blank {c : Char} (h : c.isDigit = true) :
    c ≠ ' ' ∧ c ≠ '\n' ∧ c ≠ '\t' ∧ c ≠ '\r' ∧ c ≠ '\x0b' ∧ c ≠ '\x0c' ∧ c ≠ '-' ∧ c ≠ '+' ∧ c ≠ '{' := by
  refine ⟨?_, ?_, ?_, ?_, ?_, ?_, ?_, ?_, ?_⟩ <;> rintro rfl <;> revert h <;> decide

/-- The characters of `str(n)`. -/
theorem toString_int_chars (n : ℤ) : ∀ c ∈ (toString n).toList, c = '-' ∨ c.isDigit = true := by
  intro c hc
  cases n with
  | ofNat m =>
    have e : (toString (Int.ofNat m)).toList = Nat.toDigits 10 m := Nat.toList_repr
    rw [e] at hc
    exact Or.inr (Nat.isDigit_of_mem_toDigits (by norm_num) (by norm_num) hc)
  | negSucc m =>
    have e : (toString (Int.negSucc m)).toList = '-' :: Nat.toDigits 10 (m + 1) := by
      show ("-" ++ Nat.repr (Nat.succ m)).toList = _
      rw [String.toList_append, Nat.toList_repr]; rfl
    rw [e] at hc
    rcases List.mem_cons.mp hc with h | h
    · exact Or.inl h
    · exact Or.inr (Nat.isDigit_of_mem_toDigits (by norm_num) (by norm_num) h)

/-- `int(str(n)) == n`. -/
theorem pyInt_toString (n : ℤ) : pyInt (toString n) = .ok n := by
  have hb : ∀ c ∈ (toString n).toList, decide (c = ' ' ∨ c = '\n' ∨ c = '\t' ∨ c = '\r' ∨ c = '\x0b' ∨ c = '\x0c')
      = false := by
    intro c hc
    rcases toString_int_chars n c hc with rfl | h
    · decide
    · obtain ⟨a1, a2, a3, a4, a5, a6, -, -, -⟩ := digit_not_blank h
      simp [a1, a2, a3, a4, a5, a6]
  have s1 : (((toString n).toList.dropWhile fun c => decide (c = ' ' ∨ c = '\n' ∨ c = '\t' ∨ c = '\r' ∨ c = '\x0b' ∨ c = '\x0c')).reverse.dropWhile fun c => decide (c = ' ' ∨ c = '\n' ∨ c = '\t' ∨ c = '\r' ∨ c = '\x0b' ∨ c = '\x0c')).reverse = (toString n).toList := by
    rw [strip_of_ends hb, strip_of_ends (fun c hc => hb c (List.mem_reverse.mp hc)), List.reverse_reverse]
  unfold pyInt
  simp only [s1]
  cases n with
  | ofNat m =>
    have e : (toString (Int.ofNat m)).toList = Nat.toDigits 10 m := Nat.toList_repr
    have hd : ∀ c ∈ Nat.toDigits 10 m, c.isDigit = true := fun c hc =>
      Nat.isDigit_of_mem_toDigits (by norm_num) (by norm_num) hc
    rw [e]
    have v := intDigits_toDigits m
    cases hl : Nat.toDigits 10 m with
    | nil => exact absurd hl Nat.toDigits_ne_nil
    | cons c l =>
      rw [hl] at hd v
      obtain ⟨-, -, -, -, -, -, n1, n2, -⟩ := digit_not_blank (hd c List.mem_cons_self)
      split
      · rename_i r heq
        split at heq
        · rename_i cs hcs
          exact absurd (List.cons.inj hcs).1 n1
        · rename_i cs hcs
          exact absurd (List.cons.inj hcs).1 n2
        · rw [v] at heq
          cases heq; rfl
      · rename_i heq
        split at heq
        · rename_i cs hcs
          exact absurd (List.cons.inj hcs).1 n1
        · rename_i cs hcs
          exact absurd (List.cons.inj hcs).1 n2
        · rw [v] at heq
          cases heq
  | negSucc m =>
    have e : (toString (Int.negSucc m)).toList = '-' :: Nat.toDigits 10 (m + 1) := by
      show ("-" ++ Nat.repr (Nat.succ m)).toList = _
      rw [String.toList_append, Nat.toList_repr]; rfl
    rw [e]
    simp only [intDigits_toDigits, Option.map_some]
    rfl

end Verif

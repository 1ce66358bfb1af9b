import Mathlib.Data.List.Basic
import Verif.Model.Py

/-!
# Elementwise evaluation with length-one broadcasting, independently of the code
-/

namespace Verif.Spec

/-- Arrays of these lengths broadcast to the common length `n`. -/
def Fits (n : ℕ) (lens : List ℕ) : Prop := (∀ l ∈ lens, l = 1 ∨ l = n) ∧ n ∈ lens

/-- The element of the array used in position `i` of the result. -/
def pick {α : Type} (l : List α) (i : ℕ) : Option α := if l.length = 1 then l[0]? else l[i]?

/-- The number which a NumPy value contributes to position `i` of the result. -/
def entry {α : Type} : Out α → ℕ → Option α
  | .scalar a, _ => some a
  | .arr l, i => pick l i

/-- The number of elements of a NumPy value, zero for a scalar. -/
def HasLen {α : Type} (n k : ℕ) : Out α → Prop
  | .scalar _ => k = 0
  | .arr l => l.length = k ∧ (k = 1 ∨ k = n)

/-- A NumPy value which broadcasts to the `n` numbers `f 0, ..., f (n - 1)`: a scalar (`k = 0`), or an array
with `k` elements, `k` being one or `n`. -/
structure Rep {α : Type} (n k : ℕ) (x : Out α) (f : ℕ → α) : Prop where
  len : HasLen n k x
  get : ∀ i < n, entry x i = some (f i)

end Verif.Spec

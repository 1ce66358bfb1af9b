import Verif.Model.Float

/-!
# Python/NumPy values used by the model

Exceptions are values, arrays are lists.
-/

namespace Verif

/-- The exceptions the modelled code can raise. `UtilError`, `CalError`, ... are the local
`class Error(Exception)` of `util.py`, `calendar.py`, and so on. -/
inductive PyErr where
  | ValueError (msg : String)
  | TypeError (msg : String)
  | KeyError (msg : String)
  | IndexError (msg : String)
  | AttributeError (msg : String)
  | OverflowError (msg : String)
  | Error (modName : String) (msg : String)
  deriving DecidableEq, Repr

/-- A Python/NumPy number: an integer (`int`, `int64`) or a float (`float`, `float64`, denoted by
its rational value).  Used for the arguments of the functions of calendar.py. -/
inductive Num where
  | int (n : ℤ)
  | flt (q : ℚ)
  deriving DecidableEq

namespace Num

/-- The number denoted.  Used for the arguments of the functions of calendar.py. -/
def val : Num → ℚ
  | int n => n
  | flt q => q

/-- NumPy `x.astype("i")`: cast to a C `int` (32 bits).  An integer wraps around modulo `2^32`;
a float is truncated, and out of range floats give `INT_MIN` (the x86-64 behaviour; C leaves it
undefined). -/
def toI32 : Num → ℤ
  | int n => Int.bmod n (2 ^ 32)
  | flt q => if -2 ^ 31 ≤ trunc q ∧ trunc q < 2 ^ 31 then trunc q else -2 ^ 31

/-- NumPy `x.astype(np.int64)`, Python `int(x)`; values outside the int64 range not modelled.
Used for lines 189-195, 234-242, 308-317, 349-356 and 511 of calendar.py. -/
def toInt : Num → ℤ
  | int n => n
  | flt q => trunc q

/-- Is it a float?.  Used for the arguments of the functions of calendar.py. -/
def isFlt : Num → Bool
  | int _ => false
  | flt _ => true

end Num

/-- What `_scalar_if_one` returns: a plain scalar for arrays of size one, else the array.
Used for lines 39-55 of util.py. -/
inductive Out (α : Type) where
  | scalar (a : α)
  | arr (l : List α)
  deriving DecidableEq

/-- `util.py` lines 37-55, `_scalar_if_one`, applied to a 1-D array. -/
def scalarIfOne {α : Type} : List α → Out α
  | [a] => .scalar a
  | l => .arr l

/-- `np.atleast_1d` of such a result.
Used for the calls of `np.atleast_1d` in calendar.py lines 76-77, 112-114, 157-159 and 231. -/
def Out.toList {α : Type} : Out α → List α
  | .scalar a => [a]
  | .arr l => l

/-- Result length of broadcasting two 1-D arrays (NumPy's rule).
Used for lines 78, 115, 171, 311, 345 and 464 of calendar.py. -/
def bdim (a b : ℕ) : Option ℕ :=
  if a = b then some a else if a = 1 then some b else if b = 1 then some a else none

/-- Stretch a 1-D array to length `n` (only used when its length is `1` or `n`).
Used for lines 78, 115, 171, 311, 345 and 464 of calendar.py. -/
def stretch {α : Type} (n : ℕ) : List α → List α
  | [a] => List.replicate n a
  | l => l

/-- The exception NumPy raises for incompatible shapes.
Used for lines 78, 115, 171, 311, 345 and 464 of calendar.py. -/
def shapeErr : PyErr := .ValueError "shape mismatch: objects cannot be broadcast to a single shape"

/-- `np.broadcast_arrays(a, b)` for 1-D arrays, as a list of rows.  Used for lines 78 and 345 of calendar.py. -/
def bcast2 {α β : Type} (a : List α) (b : List β) : Except PyErr (List (α × β)) :=
  match bdim a.length b.length with
  | none => .error shapeErr
  | some n => .ok ((stretch n a).zip (stretch n b))

/-- `np.broadcast_arrays(a, b, c)` for 1-D arrays, as a list of rows.
Used for lines 115, 171, 311 and 464 of calendar.py. -/
def bcast3 {α β γ : Type} (a : List α) (b : List β) (c : List γ) :
    Except PyErr (List (α × β × γ)) :=
  match bdim a.length b.length with
  | none => .error shapeErr
  | some k =>
    match bdim k c.length with
    | none => .error shapeErr
    | some n => .ok ((stretch n a).zip ((stretch n b).zip (stretch n c)))

end Verif

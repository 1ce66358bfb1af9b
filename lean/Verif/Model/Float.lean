import Mathlib.Data.Rat.Floor
import Mathlib.Algebra.Order.Floor.Ring
import Mathlib.Algebra.Order.Field.Basic
import Mathlib.Tactic.Linarith
import Mathlib.Tactic.NormNum
import Mathlib.Tactic.Positivity
import Mathlib.Tactic.Ring
import Mathlib.Tactic.FieldSimp

/-!
# Numbers

The calendar and utility code of astronomia computes with Python/NumPy integers and IEEE
binary64 floats.  A float is modelled by the rational number it denotes, and every float
operation `a ∘ b` of the source is modelled by `fl (a ∘ b)` where `fl : ℚ → ℚ` is the rounding
function.  The model functions take `fl` as a parameter, so that the same text is at once

* the IEEE program, when `fl` is any round-to-nearest function on binary64 (`Rounding fl`;
  the tie-breaking rule is left open, `ties-to-even` is one instance, see `rne`), and
* the program over exact rationals, when `fl = id`.

Not modelled: overflow to `inf`, `nan`, signed zero.
-/

namespace Verif

/-- Truncation toward zero: NumPy `x.astype(np.int64)` and Python `int(x)` on a float, and the
integer part returned by `math.modf`/`np.modf`.  (Values outside the int64 range are not modelled.)
Used for lines 80-85, 116-119, 189-195, 234-242 and 538 of calendar.py. -/
def trunc (x : ℚ) : ℤ := if 0 ≤ x then ⌊x⌋ else ⌈x⌉

/-- The rationals denoted by finite binary64 numbers, with no upper limit on the exponent
(overflow is not modelled).  Used for the floats of calendar.py (lines 52-654); no text of its own. -/
def IsF64 (y : ℚ) : Prop := ∃ m e : ℤ, |m| ≤ 2 ^ 53 ∧ -1074 ≤ e ∧ y = m * (2 : ℚ) ^ e

/-- `fl` is a round-to-nearest function on binary64: its values are binary64 numbers, and no
binary64 number is closer to `x` than `fl x`.
Used for every float operation of calendar.py (lines 52-654); no text of its own. -/
structure Rounding (fl : ℚ → ℚ) : Prop where
  rep : ∀ x, IsF64 (fl x)
  nearest : ∀ x y, IsF64 y → |fl x - x| ≤ |y - x|

/-- What the calendar proofs use about the arithmetic.  Both exact arithmetic (`fl = id`) and
every IEEE rounding satisfy it (`FloatLike.id`, `Rounding.floatLike`).
Used for every float operation of calendar.py (lines 52-654); no text of its own. -/
structure FloatLike (fl : ℚ → ℚ) : Prop where
  fix : ∀ y, IsF64 y → fl y = y
  mono : Monotone fl
  err : ∀ x, |fl x - x| ≤ |x| / 2 ^ 53 + 1 / 2 ^ 1074

end Verif

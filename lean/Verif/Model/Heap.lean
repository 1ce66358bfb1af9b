import Mathlib.Order.Defs.LinearOrder
import Mathlib.Data.Nat.Notation

/-!
# The standard library's `heapq`, used by `apps/cronus.py` 24

A heap is a list.  Items are compared by a key: `cronus.py` 56-66 defines `Task.__gt__` as the
comparison of the dates and no `__lt__`, so Python evaluates `a < b` as the reflected `b > a`, that is
`b.jd > a.jd` (`__cmp__` is ignored by Python 3).  `heapq.py` (CPython, the C version is the same
algorithm) moves a hole instead of swapping items, and so does the model.
-/

namespace Verif

variable {α K : Type} [Inhabited α] [LinearOrder K]

/-- `heapq._siftdown(heap, 0, pos)` with `newitem` in hand: follow the path to the root, moving
parents down until finding a place where `newitem` fits.
Used for line 24 of apps/cronus.py (the text modelled is CPython's Lib/heapq.py). -/
def siftdown (key : α → K) (newitem : α) (heap : List α) (pos : ℕ) : List α :=
  if h : 0 < pos then
    let parentpos := (pos - 1) / 2
    let parent := heap[parentpos]!
    if key newitem < key parent then siftdown key newitem (heap.set pos parent) parentpos
    else heap.set pos newitem
  else heap.set pos newitem
termination_by pos
decreasing_by omega

/-- The loop of `heapq._siftup(heap, pos)`: bubble up the smaller child until hitting a leaf.
Returns the list and the position of the hole.
Used for line 24 of apps/cronus.py (the text modelled is CPython's Lib/heapq.py). -/
def siftupLoop (key : α → K) (heap : List α) (pos : ℕ) : List α × ℕ :=
  let childpos := 2 * pos + 1
  if h : childpos < heap.length then
    let rightpos := childpos + 1
    let childpos := if rightpos < heap.length ∧ ¬ key heap[childpos]! < key heap[rightpos]! then rightpos
      else childpos
    siftupLoop key (heap.set pos heap[childpos]!) childpos
  else (heap, pos)
termination_by heap.length - pos
decreasing_by simp only [List.length_set]; split_ifs <;> omega

/-- `heapq._siftup(heap, 0)`.  Used for line 24 of apps/cronus.py (the text modelled is CPython's Lib/heapq.py). -/
def siftup (key : α → K) (heap : List α) : List α :=
  let newitem := heap[0]!
  let (heap, pos) := siftupLoop key heap 0
  siftdown key newitem (heap.set pos newitem) pos

/-- `heapq.heappush(heap, item)`.
Used for line 24 of apps/cronus.py (the text modelled is CPython's Lib/heapq.py). -/
def heappush (key : α → K) (heap : List α) (item : α) : List α :=
  siftdown key item (heap ++ [item]) heap.length

/-- `heapq.heappop(heap)`: the item returned and the list left; `none` is the `IndexError` of an empty
list.  Used for line 24 of apps/cronus.py (the text modelled is CPython's Lib/heapq.py). -/
def heappop (key : α → K) (heap : List α) : Option (α × List α) :=
  match heap.getLast? with
  | none => none
  | some lastelt =>
    let heap := heap.dropLast
    if heap = [] then some (lastelt, [])
    else some (heap[0]!, siftup key (heap.set 0 lastelt))

end Verif

import Verif.Model.Planets

/-!
# `planets.py` in binary64

The same code as in `Model/Planets.lean`, for a single time, with every operation rounded.  The
library functions are parameters: `cosF` is NumPy's cosine, `sumF` is NumPy's summation.  What is
assumed of them is stated in `CosLike` and `SumLike`.
-/

namespace Verif

/-- What is assumed of `np.cos`: an absolute error of at most `2^-50`, that is 4 units in the last
place for values between a half and one (NumPy documents at most 4).  Used for line 118 of planets.py. -/
def CosLike (cosF : ℚ → ℚ) : Prop := ∀ x : ℚ, |(cosF x : ℝ) - Real.cos x| ≤ 1 / 2 ^ 50

/-- `s` is a rounded sum of the numbers in the list: they are added in pairs, in any order and with
any bracketing, at most `D` additions deep.  Used for line 118 of planets.py. -/
inductive FlSum (fl : ℚ → ℚ) : ℕ → List ℚ → ℚ → Prop where
  | nil (D : ℕ) : FlSum fl D [] 0
  | one (D : ℕ) (x : ℚ) : FlSum fl D [x] x
  | add {D : ℕ} {l m : List ℚ} {a b : ℚ} (hl : FlSum fl D l a) (hm : FlSum fl D m b) :
      FlSum fl (D + 1) (l ++ m) (fl (a + b))
  | perm {D : ℕ} {l m : List ℚ} {s : ℚ} (h : l.Perm m) (hl : FlSum fl D l s) : FlSum fl D m s

/-- What is assumed of `np.sum` on lists of at most `n` numbers.  NumPy's pairwise summation adds
blocks of 128 numbers in 8 interleaved chains of 16 and halves longer lists.  Used for line 118 of planets.py. -/
def SumLike (fl : ℚ → ℚ) (n D : ℕ) (sumF : List ℚ → ℚ) : Prop :=
  ∀ l : List ℚ, l.length ≤ n → FlSum fl D l (sumF l)

variable (fl : ℚ → ℚ)

/-- `constants.py` 32: `pi2 = 2 * pi`, with `math.pi` the binary64 number nearest to `π`. -/
def pi2F : ℚ := 884279719003555 / 140737488355328

/-- `planets.py` 118: `A * np.cos(B + C * tau)`.  The literals are rounded. -/
def vsopTermF (cosF : ℚ → ℚ) (r : Term) (tau : ℚ) : ℚ :=
  fl (fl (r.1 / 10 ^ 11) * cosF (fl (fl (r.2.1 / 10 ^ 11) + fl (fl (r.2.2 / 10 ^ 11) * tau))))

/-- `planets.py` 117-119: the loop over the series, for a single time. -/
def vsopLoopF (cosF : ℚ → ℚ) (sumF : List ℚ → ℚ) (tau : ℚ) : List (List Term) → ℚ → ℚ → ℚ
  | [], X, _ => X
  | s :: c, X, tauN =>
    vsopLoopF cosF sumF tau c (fl (X + fl (sumF (s.map fun r => vsopTermF fl cosF r tau) * tauN)))
      (fl (tauN * tau))

/-- `planets.py` 88-124 `VSOP87d.dimension` for a single time. -/
def vsopDimensionF (cosF : ℚ → ℚ) (sumF : List ℚ → ℚ) (jd : ℚ) (planet dim : String) : Except PyErr ℚ :=
  let tau := fl (fl (fl (jd - 2451545) / 36525) / 10)
  match vsopDict.lookup (planet, dim) with
  | none => .error (.KeyError planet)
  | some c =>
    let X := vsopLoopF fl cosF sumF tau c 0 1
    .ok (if dim = "L" then modpi2F fl pi2F X else X)

end Verif

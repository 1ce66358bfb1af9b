import Verif.Lemmas.FloatVsop
import Verif.Props.Angles
import Verif.Props.Planets
import Mathlib.Topology.Instances.Rat

/-!
# C75: `VSOP87d.dimension` in binary64

The theorems of C39-C41, C61, C74 are about the series in real arithmetic.  Here the same code is run
with every operation rounded, a cosine with an error of at most `2^-50`, and a summation in any order:
the result is the real one up to the error in the table below.
-/

namespace Verif
open Real

/-- The largest errors (radians, astronomical units) of the longitude, the latitude and the distance
of a planet. -/
structure Tol where
  name : String
  tolL : ℚ
  tolB : ℚ
  tolR : ℚ

/-- Within 2000 years of J2000, for a summation at most 64 additions deep. -/
def tols2 : List Tol := [
  ⟨"Mercury", 1.04e-9, 1.2e-11, 6.2e-12⟩, ⟨"Venus", 4.0e-10, 1.7e-12, 2e-13⟩,
  ⟨"Earth", 2.51e-10, 1e-13, 3e-13⟩, ⟨"Mars", 1.41e-10, 4e-13, 1.5e-12⟩,
  ⟨"Jupiter", 3.2e-11, 1e-13, 5e-13⟩, ⟨"Saturn", 2e-11, 1e-13, 6e-13⟩,
  ⟨"Uranus", 1.5e-11, 1e-13, 6e-13⟩, ⟨"Neptune", 1.3e-11, 1e-13, 6e-13⟩]

/-- Within 6000 years of J2000, for a summation at most 64 additions deep. -/
def tols6 : List Tol := [
  ⟨"Mercury", 3.2e-9, 4e-11, 2.2e-11⟩, ⟨"Venus", 1.2e-9, 7e-12, 6e-13⟩,
  ⟨"Earth", 7.3e-10, 1e-13, 1.2e-12⟩, ⟨"Mars", 4.1e-10, 1.6e-12, 6.1e-12⟩,
  ⟨"Jupiter", 7.3e-11, 2e-13, 1.7e-12⟩, ⟨"Saturn", 3.7e-11, 2e-13, 2.4e-12⟩,
  ⟨"Uranus", 2e-11, 1e-13, 1e-12⟩, ⟨"Neptune", 1.6e-11, 1e-13, 7e-13⟩]

/-- Within 6000 years of J2000, for any order of summation. -/
def tolsAny : List Tol := [
  ⟨"Mercury", 7.3e-8, 4e-11, 2.2e-11⟩, ⟨"Venus", 2.9e-8, 7e-12, 1e-12⟩,
  ⟨"Earth", 1.8e-8, 1e-13, 1.6e-12⟩, ⟨"Mars", 9.3e-9, 1.6e-12, 6.8e-12⟩,
  ⟨"Jupiter", 1.5e-9, 2e-13, 4.2e-12⟩, ⟨"Saturn", 6.1e-10, 2e-13, 7.3e-12⟩,
  ⟨"Uranus", 2.2e-10, 1e-13, 1e-11⟩, ⟨"Neptune", 1.2e-10, 1e-13, 1.5e-11⟩]

/-- The result of the code in binary64 is that in real arithmetic up to the error `e` (and whole turns
for a longitude, which lies between 0 and the float `2 π`). -/
def Agrees (fl cosF : ℚ → ℚ) (sumF : List ℚ → ℚ) (jd : ℚ) (planet dim : String) (e : ℚ) : Prop :=
  ∃ (x : ℚ) (y : ℝ) (k : ℤ), vsopDimensionF fl cosF sumF jd planet dim = .ok x ∧
    vsopDimension vsopDict [(jd : ℝ)] planet dim = .ok (.scalar y) ∧
    |(x : ℝ) - y - k * (2 * π)| ≤ e ∧ (dim ≠ "L" → k = 0) ∧ (dim = "L" → 0 ≤ x ∧ x ≤ pi2F)

/-- Checks a table, by rational arithmetic. -/
def tableOk (T : ℚ) (D : ℕ) (c : List (List Term)) (tol : ℚ) : Bool :=
  (c.all fun s => decide (s.length ≤ 1400) && s.all termOk) && decide (loopErr T D c 0 0 0 1 ≤ tol)

/-- Checks the tables of a planet. -/
def tolOk (T : ℕ) (D : ℕ) (t : Tol) : Bool :=
  match vsopDict.lookup (t.name, "L"), vsopDict.lookup (t.name, "B"), vsopDict.lookup (t.name, "R") with
  | some cL, some cB, some cR =>
    tableOk T D cL (t.tolL - 1.1e-11) && tableOk T D cB t.tolB && tableOk T D cR t.tolR &&
      decide (pAmpl T cL ≤ 160000 * 10 ^ 11) && decide (t.tolL ≤ 1)
  | _, _, _ => false

theorem tols2_ok : ∀ t ∈ tols2, tolOk 2 64 t = true := by decide +kernel
theorem tols6_ok : ∀ t ∈ tols6, tolOk 6 64 t = true := by decide +kernel
theorem tolsAny_ok : ∀ t ∈ tolsAny, tolOk 6 1400 t = true := by decide +kernel

theorem table_near {fl : ℚ → ℚ} (hf : FloatLike fl) {cosF : ℚ → ℚ} (hc : CosLike cosF)
    {sumF : List ℚ → ℚ} {D : ℕ} (hs : SumLike fl 1400 D sumF) (hD : D ≤ 2 ^ 50) {T : ℕ} (hT : 1 ≤ T) (hT6 : T ≤ 6)
    {jd : ℚ} (hj : |millennia jd| ≤ T) {c : List (List Term)} {tol : ℚ} (ok : tableOk T D c tol = true) :
    Near (vsopLoopF fl cosF sumF (fl (fl (fl (jd - 2451545) / 36525) / 10)) c 0 1) (poisson c (millennia jd)) tol := by
  unfold tableOk at ok
  simp only [Bool.and_eq_true, List.all_eq_true, decide_eq_true_eq] at ok
  obtain ⟨h1, h2⟩ := ok
  have hT1 : (1 : ℝ) ≤ T := by exact_mod_cast hT
  have t := tau_near hf jd hT1 hj
  have := vsopLoop_near hf hc hs hD (T := T) (by push_cast; exact t) (by push_cast; exact hj) (by exact_mod_cast hT6) c
    (fun s hs => (h1 s hs).1) (fun s hs r hr => (h1 s hs).2 r hr) 0 1 0 1 0 0 0 1 (by simp [Near]) (by simp)
    (by simp [Near]) (by simp)
  rw [poisson_eq_pval]
  rw [zero_add, one_mul] at this
  exact this.mono (by exact_mod_cast h2)

theorem pi2F_near : |(pi2F : ℝ) - 2 * π| ≤ 2.5e-16 := by
  have a := Real.pi_gt_d20
  have b := Real.pi_lt_d20
  unfold pi2F
  push_cast
  norm_num at a b ⊢
  rw [abs_le]
  constructor <;> linarith

theorem pi2F_f64 : IsF64 pi2F := by
  have := isF64_dyadic (n := 884279719003555) 47 (by norm_num) (by norm_num)
  unfold pi2F
  norm_num at this ⊢
  exact this

/-- Reducing a float modulo the float `2 π`. -/
theorem modpi2F_near {fl : ℚ → ℚ} (hf : FloatLike fl) {X : ℚ} {x e : ℝ} (h : Near X x e) (he : e ≤ 1)
    (hx : |x| ≤ 160000) :
    0 ≤ modpi2F fl pi2F X ∧ modpi2F fl pi2F X ≤ pi2F ∧
      ∃ k : ℤ, |(modpi2F fl pi2F X : ℝ) - x - k * (2 * π)| ≤ e + 1e-11 := by
  have p0 : (0 : ℚ) < pi2F := by norm_num [pi2F]
  obtain ⟨h1, h2, h3, -⟩ := floatMod_spec hf X pi2F p0 pi2F_f64
  refine ⟨h1, h2, -⌊X / pi2F⌋, ?_⟩
  have h3' : |(modpi2F fl pi2F X : ℝ) - (X - pi2F * ⌊X / pi2F⌋)| ≤ 1e-15 := by
    have k : (pi2F / 2 ^ 53 + 1 / 2 ^ 1074 : ℚ) ≤ 1e-15 := by
      have : (1 : ℚ) / 2 ^ 1074 ≤ 1 / 2 ^ 60 :=
        one_div_le_one_div_of_le (by positivity) (pow_le_pow_right₀ (by norm_num) (by norm_num))
      unfold pi2F
      norm_num at this ⊢
      linarith
    have := (Rat.cast_le (K := ℝ)).mpr (h3.trans k)
    push_cast at this
    exact this
  have hX := h.abs hx
  have kb : |((⌊X / pi2F⌋ : ℤ) : ℝ)| ≤ 30000 := by
    have a := Int.floor_le (X / pi2F)
    have b := Int.lt_floor_add_one (X / pi2F)
    have q : |X / pi2F| ≤ 29000 := by
      rw [abs_div, abs_of_pos p0, div_le_iff₀ p0]
      have : |X| ≤ 160001 := by
        have : |(X : ℝ)| ≤ 160001 := by linarith
        exact_mod_cast this
      refine this.trans ?_
      norm_num [pi2F]
    obtain ⟨q1, q2⟩ := abs_le.mp q
    have : |((⌊X / pi2F⌋ : ℤ) : ℚ)| ≤ 30000 := abs_le.mpr ⟨by linarith, by linarith⟩
    exact_mod_cast this
  generalize (⌊X / pi2F⌋ : ℤ) = k at *
  have d := pi2F_near
  unfold Near at h
  have kd : |(k : ℝ) * (pi2F - 2 * π)| ≤ 30000 * 2.5e-16 := by
    rw [abs_mul]; exact mul_le_mul kb d (abs_nonneg _) (by norm_num)
  have e1 : (modpi2F fl pi2F X : ℝ) - x - ((-k : ℤ) : ℝ) * (2 * π) =
      ((modpi2F fl pi2F X : ℝ) - (X - pi2F * k)) + (X - x) + -(k * (pi2F - 2 * π)) := by
    push_cast; ring
  rw [e1]
  refine (abs_add_le _ _).trans ?_
  have := abs_add_le ((modpi2F fl pi2F X : ℝ) - (X - pi2F * k)) (X - x)
  rw [abs_neg]
  norm_num at kd h3' ⊢
  linarith

theorem agrees_of_ok {fl : ℚ → ℚ} (hf : FloatLike fl) {cosF : ℚ → ℚ} (hc : CosLike cosF)
    {sumF : List ℚ → ℚ} {D : ℕ} (hs : SumLike fl 1400 D sumF) (hD : D ≤ 2 ^ 50) {T : ℕ} (hT : 1 ≤ T) (hT6 : T ≤ 6)
    {t : Tol} (ok : tolOk T D t = true) (jd : ℚ) (hj : |millennia jd| ≤ T) :
    Agrees fl cosF sumF jd t.name "L" t.tolL ∧ Agrees fl cosF sumF jd t.name "B" t.tolB ∧
      Agrees fl cosF sumF jd t.name "R" t.tolR := by
  unfold tolOk at ok
  split at ok
  · next cL cB cR hL hB hR =>
    simp only [Bool.and_eq_true, decide_eq_true_eq] at ok
    obtain ⟨⟨⟨⟨o1, o2⟩, o3⟩, o4⟩, o5⟩ := ok
    have nL := table_near hf hc hs hD hT hT6 hj o1
    have nB := table_near hf hc hs hD hT hT6 hj o2
    have nR := table_near hf hc hs hD hT hT6 hj o3
    refine ⟨?_, ?_, ?_⟩
    · have o5' : (t.tolL : ℝ) ≤ 1 := by exact_mod_cast o5
      have ab : |poisson cL (millennia jd)| ≤ 160000 := by
        rw [poisson_eq_pval]
        refine (pval_abs cL hj).trans ?_
        rw [div_le_iff₀ (by positivity)]
        exact_mod_cast o4
      obtain ⟨m1, m2, k, m3⟩ := modpi2F_near hf nL (by push_cast; norm_num; linarith) ab
      obtain ⟨r0, r1, k', r2⟩ := modpi2_spec (poisson cL (millennia jd))
      refine ⟨_, _, k - k', ?_, vsop_dimension_value _ _ _ _ hL, ?_, fun h => absurd rfl h, fun _ => ⟨m1, m2⟩⟩
      · unfold vsopDimensionF; simp only [hL]; rfl
      · rw [if_pos rfl, r2]
        push_cast at m3 ⊢
        norm_num at m3 ⊢
        refine le_trans (le_of_eq ?_) (m3.trans (by linarith))
        congr 1; ring
    · refine ⟨vsopLoopF fl cosF sumF (fl (fl (fl (jd - 2451545) / 36525) / 10)) cB 0 1, _, 0, ?_,
        vsop_dimension_value _ _ _ _ hB, ?_, fun _ => rfl, fun h => absurd h (by decide)⟩
      · unfold vsopDimensionF; simp only [hB]; rfl
      · simpa [Near] using nB
    · refine ⟨vsopLoopF fl cosF sumF (fl (fl (fl (jd - 2451545) / 36525) / 10)) cR 0 1, _, 0, ?_,
        vsop_dimension_value _ _ _ _ hR, ?_, fun _ => rfl, fun h => absurd h (by decide)⟩
      · unfold vsopDimensionF; simp only [hR]; rfl
      · simpa [Near] using nR
  · simp at ok

/-- C75: within 2000 years of J2000 the rounding errors are at most those in `tols2`, for every
rounding to nearest, cosine and summation. -/
theorem vsop_float_2 {fl : ℚ → ℚ} (hf : FloatLike fl) {cosF : ℚ → ℚ} (hc : CosLike cosF)
    {sumF : List ℚ → ℚ} (hs : SumLike fl 1400 64 sumF) (jd : ℚ) (hj : |millennia jd| ≤ 2) (t : Tol) (ht : t ∈ tols2) :
    Agrees fl cosF sumF jd t.name "L" t.tolL ∧ Agrees fl cosF sumF jd t.name "B" t.tolB ∧
      Agrees fl cosF sumF jd t.name "R" t.tolR :=
  agrees_of_ok hf hc hs (by norm_num) (by norm_num) (by norm_num) (tols2_ok t ht) jd (by exact_mod_cast hj)

/-- C75: within 6000 years of J2000. -/
theorem vsop_float_6 {fl : ℚ → ℚ} (hf : FloatLike fl) {cosF : ℚ → ℚ} (hc : CosLike cosF)
    {sumF : List ℚ → ℚ} (hs : SumLike fl 1400 64 sumF) (jd : ℚ) (hj : |millennia jd| ≤ 6) (t : Tol) (ht : t ∈ tols6) :
    Agrees fl cosF sumF jd t.name "L" t.tolL ∧ Agrees fl cosF sumF jd t.name "B" t.tolB ∧
      Agrees fl cosF sumF jd t.name "R" t.tolR :=
  agrees_of_ok hf hc hs (by norm_num) (by norm_num) (by norm_num) (tols6_ok t ht) jd (by exact_mod_cast hj)

/-- C75: within 6000 years of J2000, however the terms are added up, one after the other included. -/
theorem vsop_float_any {fl : ℚ → ℚ} (hf : FloatLike fl) {cosF : ℚ → ℚ} (hc : CosLike cosF)
    {sumF : List ℚ → ℚ} (hs : SumLike fl 1400 1400 sumF) (jd : ℚ) (hj : |millennia jd| ≤ 6) (t : Tol)
    (ht : t ∈ tolsAny) :
    Agrees fl cosF sumF jd t.name "L" t.tolL ∧ Agrees fl cosF sumF jd t.name "B" t.tolB ∧
      Agrees fl cosF sumF jd t.name "R" t.tolR :=
  agrees_of_ok hf hc hs (by norm_num) (by norm_num) (by norm_num) (tolsAny_ok t ht) jd (by exact_mod_cast hj)

/-- C75: the same exception for a planet or coordinate which does not exist. -/
theorem vsop_float_refuses (fl cosF : ℚ → ℚ) (sumF : List ℚ → ℚ) (jd : ℚ) (p d : String) (e : PyErr) :
    vsopDimensionF fl cosF sumF jd p d = .error e ↔ vsopDimension vsopDict [(jd : ℝ)] p d = .error e := by
  unfold vsopDimensionF vsopDimension
  cases vsopDict.lookup (p, d) <;> simp

/-! ### The assumptions can be met -/

theorem cosLike_exists : ∃ cosF : ℚ → ℚ, CosLike cosF := by
  have : ∀ x : ℚ, ∃ q : ℚ, |(q : ℝ) - Real.cos x| ≤ 1 / 2 ^ 50 := by
    intro x
    obtain ⟨q, h1, h2⟩ := exists_rat_btwn (show Real.cos x - 1 / 2 ^ 50 < Real.cos x by norm_num)
    exact ⟨q, abs_le.mpr ⟨by linarith, by norm_num at h2 ⊢; linarith⟩⟩
  choose f hf using this
  exact ⟨f, hf⟩

/-- Adding up the two halves of a list. -/
def halfSum (fl : ℚ → ℚ) : ℕ → List ℚ → ℚ
  | 0, l => l.headD 0
  | d + 1, l =>
    if l.length ≤ 1 then l.headD 0
    else fl (halfSum fl d (l.take (l.length / 2)) + halfSum fl d (l.drop (l.length / 2)))

theorem FlSum.one_of_length {fl : ℚ → ℚ} (D : ℕ) {l : List ℚ} (h : l.length ≤ 1) : FlSum fl D l (l.headD 0) := by
  match l, h with
  | [], _ => exact .nil D
  | [x], _ => exact .one D x

theorem halfSum_flSum (fl : ℚ → ℚ) (d : ℕ) (l : List ℚ) (h : l.length ≤ 2 ^ d) : FlSum fl d l (halfSum fl d l) := by
  induction d generalizing l with
  | zero => exact FlSum.one_of_length 0 (by simpa using h)
  | succ d ih =>
    rw [halfSum]
    split_ifs with hl
    · exact FlSum.one_of_length _ hl
    · have := FlSum.add (ih (l.take (l.length / 2)) (by rw [List.length_take]; rw [pow_succ] at h; omega))
        (ih (l.drop (l.length / 2)) (by rw [List.length_drop]; rw [pow_succ] at h; omega))
      rwa [List.take_append_drop] at this

example : SumLike rne 1400 64 (halfSum rne 64) := fun l h => halfSum_flSum rne 64 l (h.trans (by norm_num))
example : FloatLike rne := rounding_rne.floatLike
example : tols2.map Tol.name = knownPlanets ∧ tols6.map Tol.name = knownPlanets ∧
    tolsAny.map Tol.name = knownPlanets := by decide

/-- The order one after the other. -/
theorem foldl_flSum (fl : ℚ → ℚ) (l : List ℚ) (x : ℚ) (D : ℕ) (pre : List ℚ) (h : FlSum fl D pre x) :
    FlSum fl (D + l.length) (pre ++ l) (l.foldl (fun a b => fl (a + b)) x) := by
  induction l generalizing x D pre with
  | nil => simpa using h
  | cons y l ih =>
    have := ih (fl (x + y)) (D + 1) (pre ++ [y]) (.add h (.one D y))
    simp only [List.length_cons, List.foldl_cons]
    rw [show pre ++ y :: l = pre ++ [y] ++ l by simp, show D + (l.length + 1) = D + 1 + l.length by ring]
    exact this

theorem FlSum.mono {fl : ℚ → ℚ} {D E : ℕ} {l : List ℚ} {s : ℚ} (h : FlSum fl D l s) (hE : D ≤ E) : FlSum fl E l s := by
  induction h generalizing E with
  | nil D => exact .nil E
  | one D x => exact .one E x
  | @add D l m a b hl hm ihl ihm =>
    obtain ⟨E', rfl⟩ : ∃ E', E = E' + 1 := ⟨E - 1, by omega⟩
    exact .add (ihl (by omega)) (ihm (by omega))
  | @perm D l m s hp hl ih => exact .perm hp (ih hE)

example : SumLike rne 1400 1400 (fun l => l.foldl (fun a b => rne (a + b)) 0) := fun l h => by
  have := foldl_flSum rne l 0 0 [] (.nil 0)
  exact this.mono (by omega)

end Verif

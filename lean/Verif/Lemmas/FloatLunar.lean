import Verif.Model.FloatLunar
import Verif.Lemmas.FloatSun
import Verif.Lemmas.FloatApprox
import Verif.Lemmas.Lunar
import Verif.Props.Nutation

/-!
# Rounding errors of `lunar.py`
-/

namespace Verif
open Real

theorem jcentF_near20 {fl : ℚ → ℚ} (hf : FloatLike fl) {jd : ℚ} (h : |jcent jd| ≤ 20) :
    Near (jcentF fl jd) (jcent jd) (42 * uu : ℚ) := by
  have a0 : |(jd : ℝ) - 2451545| ≤ 20 * 36525 := by
    unfold jcent at h
    rw [abs_div, abs_of_pos (by norm_num : (0 : ℝ) < 36525), div_le_iff₀ (by norm_num)] at h
    exact h
  have n0 : Near (jd - 2451545) ((jd : ℝ) - 2451545) 0 := by simp [Near]
  have n1 := (n0.fl hf a0).div_const (k := 36525) (by norm_num)
  have n2 := n1.rnd hf (M := 20) (e' := 42 * uu) (by push_cast; exact h) (by
    rw [uuR, wwR]; push_cast; norm_num)
  unfold jcentF jcent
  push_cast at n2 ⊢
  exact n2

/-- Checks the constants of a polynomial. -/
def polyOk20 (qs : List ℚ) : Bool := decide (hM 20 qs ≤ 170000) && decide (hE 20 (42 * uu) qs ≤ 1.7e-10)

theorem angle_near20 {fl : ℚ → ℚ} (hf : FloatLike fl) {jd : ℚ} (h : |jcent jd| ≤ 20) {qs : List ℚ}
    (ok : polyOk20 qs = true) :
    NearA (modpi2F fl pi2F (horner fl (jcentF fl jd) (radF fl qs)))
      (polyR (qs.map fun q : ℚ => dToR (q : ℝ)) (jcent jd)) 1.9e-10 := by
  unfold polyOk20 at ok
  simp only [Bool.and_eq_true, decide_eq_true_eq] at ok
  obtain ⟨o1, o2⟩ := ok
  have o1 : ((hM 20 qs : ℚ) : ℝ) ≤ 170000 := by exact_mod_cast o1
  have o2 : ((hE 20 (42 * uu) qs : ℚ) : ℝ) ≤ 1.7e-10 := by
    have := (Rat.cast_le (K := ℝ)).mpr o2; push_cast at this; exact this
  obtain ⟨a, n⟩ := horner_near hf (T := 20) (jcentF_near20 hf h) (by push_cast; exact h) qs
  refine (modpi2F_nearA hf (n.mono o2) (by norm_num) (a.trans o1)).mono ?_
  norm_num

theorem deg20_ok : ∀ l ∈ [degL1, degD, degM, degM1, degF, degA1, degA2, degA3, dego, degPerigee], polyOk20 l = true := by decide +kernel

theorem degL1_eq : (degL1.map fun q : ℚ => dToR (q : ℝ)) = kL1 := by unfold degL1 kL1; simp only [List.map]; push_cast; rfl
theorem degA1_eq : (degA1.map fun q : ℚ => dToR (q : ℝ)) = kA1 := by unfold degA1 kA1; simp only [List.map]; push_cast; rfl
theorem degA2_eq : (degA2.map fun q : ℚ => dToR (q : ℝ)) = kA2 := by unfold degA2 kA2; simp only [List.map]; push_cast; rfl
theorem degA3_eq : (degA3.map fun q : ℚ => dToR (q : ℝ)) = kA3 := by unfold degA3 kA3; simp only [List.map]; push_cast; rfl

/-- An angle of `_constants`. -/
structure AngOk (X : ℚ) (x : ℝ) : Prop where
  r : 0 ≤ X ∧ X ≤ pi2F
  n : NearA X x 1.9e-10

/-- The values of `_constants`, with their errors. -/
structure LunarNear (c : LunarConstantsF) (T : ℝ) : Prop where
  L1 : AngOk c.L1 (polyR kL1 T)
  D : AngOk c.D (polyR kD T)
  M : AngOk c.M (polyR kM T)
  M1 : AngOk c.M1 (polyR kM1 T)
  F : AngOk c.F (polyR kF T)
  A1 : AngOk c.A1 (polyR kA1 T)
  A2 : AngOk c.A2 (polyR kA2 T)
  A3 : AngOk c.A3 (polyR kA3 T)
  E : Near c.E (lunarConstants T).E 1e-15 ∧ |(lunarConstants T).E| ≤ 1.06
  E2 : Near c.E2 (lunarConstants T).E2 3e-15 ∧ |(lunarConstants T).E2| ≤ 1.12

theorem ang_ok {fl : ℚ → ℚ} (hf : FloatLike fl) {jd : ℚ} (h : |jcent jd| ≤ 20) {qs : List ℚ}
    (ok : qs ∈ [degL1, degD, degM, degM1, degF, degA1, degA2, degA3, dego, degPerigee]) :
    AngOk (modpi2F fl pi2F (horner fl (jcentF fl jd) (radF fl qs)))
      (polyR (qs.map fun q : ℚ => dToR (q : ℝ)) (jcent jd)) :=
  ⟨modpi2F_range hf _, angle_near20 hf h (deg20_ok _ ok)⟩

theorem lunarConstantsF_near {fl : ℚ → ℚ} (hf : FloatLike fl) {jd : ℚ} (h : |jcent jd| ≤ 20) :
    LunarNear (lunarConstantsF fl (jcentF fl jd)) (jcent jd) := by
  have hE : Near (lunarConstantsF fl (jcentF fl jd)).E (lunarConstants (jcent jd)).E 1e-15 ∧
      |(lunarConstants (jcent jd)).E| ≤ 1.06 := by
    have := hornerLit_near hf (T := 20) (jcentF_near20 hf h) (by push_cast; exact h) [1, -0.002516, -0.0000074]
      (M := 1.06) (E := 1e-15) (by decide +kernel) (by decide +kernel)
    have e : ([1, -0.002516, -0.0000074] : List ℚ).map (fun q : ℚ => (q : ℝ)) = [1, -0.002516, -0.0000074] := by
      simp only [List.map]; push_cast; rfl
    rw [e] at this
    push_cast at this
    exact ⟨this.2, this.1⟩
  have e2 : |(lunarConstants (jcent jd)).E * (lunarConstants (jcent jd)).E| ≤ 1.1236 := by
    rw [abs_mul]
    exact (mul_le_mul hE.2 hE.2 (abs_nonneg _) (by norm_num)).trans (by norm_num)
  have e3 : |(lunarConstants (jcent jd)).E * (lunarConstants (jcent jd)).E| ≤ 1.12 := by
    have e : (lunarConstants (jcent jd)).E = 1 - 0.002516 * jcent jd - 0.0000074 * jcent jd ^ 2 := by
      simp only [lunarConstants, polyR, horner]; ring
    rw [e, ← sq, abs_of_nonneg (sq_nonneg _)]
    obtain ⟨a, b⟩ := abs_le.mp h
    have s : jcent jd ^ 2 ≤ 400 := by nlinarith
    have s0 := sq_nonneg (jcent jd)
    have := sq_le_sq' (a := 1 - 0.002516 * jcent jd - 0.0000074 * jcent jd ^ 2) (b := 1.055) (by
      generalize jcent jd ^ 2 = q at *
      norm_num; linarith) (by
      generalize jcent jd ^ 2 = q at *
      norm_num; linarith)
    norm_num at this ⊢; linarith
  refine ⟨?_, ?_, ?_, ?_, ?_, ?_, ?_, ?_, hE, (hE.1.mul hE.1 hE.2 hE.2).rnd hf e2 (by rw [uuR, wwR]; norm_num), e3⟩
  · rw [← degL1_eq]; exact ang_ok hf h (by simp)
  · rw [← degD_eq]; exact ang_ok hf h (by simp)
  · rw [← degM_eq]; exact ang_ok hf h (by simp)
  · rw [← degM1_eq]; exact ang_ok hf h (by simp)
  · rw [← degF_eq]; exact ang_ok hf h (by simp)
  · rw [← degA1_eq]; exact ang_ok hf h (by simp)
  · rw [← degA2_eq]; exact ang_ok hf h (by simp)
  · rw [← degA3_eq]; exact ang_ok hf h (by simp)

theorem prod_near' {fl : ℚ → ℚ} (hf : FloatLike fl) {c : ℚ} (h : 0 ≤ c ∧ c ≤ pi2F) {t : ℤ} (ht : |t| ≤ 9) :
    |(t : ℝ) * c| ≤ 57 ∧ Near (fl (t * c)) ((t : ℝ) * c) 1e-14 := by
  have := prod_near hf h ht
  rwa [mul_comm (c : ℝ), mul_comm c] at this

theorem dev_le' {c : ℚ} {x : ℝ} {k t : ℤ} (h : Near c (x + k * (2 * π)) 1.9e-10) :
    |(t : ℝ) * c - (t * x + (k * t : ℤ) * (2 * π))| ≤ 1.9e-10 * |(t : ℝ)| := by
  push_cast
  rw [show (t : ℝ) * c - (t * x + k * t * (2 * π)) = (c - (x + k * (2 * π))) * t by ring, abs_mul]
  exact mul_le_mul_of_nonneg_right h (abs_nonneg _)

theorem lunarArgF_near {fl : ℚ → ℚ} (hf : FloatLike fl) {c : LunarConstantsF} {T : ℝ} (h : LunarNear c T)
    {t1 t2 t3 t4 : ℤ} (hr : |t1| + |t2| + |t3| + |t4| ≤ 9) :
    NearA (lunarArgF fl c t1 t2 t3 t4) (lunarArg T t1 t2 t3 t4)
      (1.9e-10 * ((|t1| + |t2| + |t3| + |t4| : ℤ) : ℝ) + 2e-13) := by
  obtain ⟨-, ⟨b1, k1, n1⟩, ⟨b2, k2, n2⟩, ⟨b3, k3, n3⟩, ⟨b4, k4, n4⟩, -, -, -, -, -⟩ := h
  have z1 := abs_nonneg t1
  have z2 := abs_nonneg t2
  have z3 := abs_nonneg t3
  have z4 := abs_nonneg t4
  obtain ⟨a1, p1⟩ := prod_near' hf b1 (t := t1) (by omega)
  obtain ⟨a2, p2⟩ := prod_near' hf b2 (t := t2) (by omega)
  obtain ⟨a3, p3⟩ := prod_near' hf b3 (t := t3) (by omega)
  obtain ⟨a4, p4⟩ := prod_near' hf b4 (t := t4) (by omega)
  unfold lunarArg lunarArgF
  generalize polyR kD T = x1 at *
  generalize polyR kM T = x2 at *
  generalize polyR kM1 T = x3 at *
  generalize polyR kF T = x4 at *
  generalize c.D = c1 at *
  generalize c.M = c2 at *
  generalize c.M1 = c3 at *
  generalize c.F = c4 at *
  have s2 := (abs_add_le ((t1 : ℝ) * c1) (t2 * c2)).trans (add_le_add a1 a2)
  have q2 := (p1.add p2).rnd hf s2 (e' := 5e-14) (by rw [uuR, wwR]; norm_num)
  have s3 := (abs_add_le ((t1 : ℝ) * c1 + t2 * c2) (t3 * c3)).trans (add_le_add s2 a3)
  have q3 := (q2.add p3).rnd hf s3 (e' := 1e-13) (by rw [uuR, wwR]; norm_num)
  have s4 := (abs_add_le ((t1 : ℝ) * c1 + t2 * c2 + t3 * c3) (t4 * c4)).trans (add_le_add s3 a4)
  have q4 := (q3.add p4).rnd hf s4 (e' := 2e-13) (by rw [uuR, wwR]; norm_num)
  have d1 := dev_le' (t := t1) n1
  have d2 := dev_le' (t := t2) n2
  have d3 := dev_le' (t := t3) n3
  have d4 := dev_le' (t := t4) n4
  refine ⟨k1 * t1 + k2 * t2 + k3 * t3 + k4 * t4, ?_⟩
  unfold Near at q4 ⊢
  generalize fl (fl (fl (fl (t1 * c1) + fl (t2 * c2)) + fl (t3 * c3)) + fl (t4 * c4)) = X at *
  push_cast at d1 d2 d3 d4 ⊢
  clear n1 n2 n3 n4 p1 p2 p3 p4 q2 q3 s2 s3 s4 a1 a2 a3 a4
  have key : (X : ℝ) - (t1 * x1 + t2 * x2 + t3 * x3 + t4 * x4 +
      (k1 * t1 + k2 * t2 + k3 * t3 + k4 * t4) * (2 * π)) =
      (X - (t1 * c1 + t2 * c2 + t3 * c3 + t4 * c4)) +
      (t1 * c1 - (t1 * x1 + k1 * t1 * (2 * π))) + (t2 * c2 - (t2 * x2 + k2 * t2 * (2 * π))) +
      (t3 * c3 - (t3 * x3 + k3 * t3 * (2 * π))) + (t4 * c4 - (t4 * x4 + k4 * t4 * (2 * π))) := by ring
  rw [key]
  generalize (t1 : ℝ) * c1 - (t1 * x1 + k1 * t1 * (2 * π)) = g1 at *
  generalize (t2 : ℝ) * c2 - (t2 * x2 + k2 * t2 * (2 * π)) = g2 at *
  generalize (t3 : ℝ) * c3 - (t3 * x3 + k3 * t3 * (2 * π)) = g3 at *
  generalize (t4 : ℝ) * c4 - (t4 * x4 + k4 * t4 * (2 * π)) = g4 at *
  generalize (X : ℝ) - (t1 * c1 + t2 * c2 + t3 * c3 + t4 * c4) = g0 at *
  have := abs_add_le (g0 + g1 + g2 + g3) g4
  have := abs_add_le (g0 + g1 + g2) g3
  have := abs_add_le (g0 + g1) g2
  have := abs_add_le g0 g1
  norm_num at *
  linarith

/-- A term of the sums. -/
theorem lunarTermF_near {fl : ℚ → ℚ} (hf : FloatLike fl) {c : LunarConstantsF} {T : ℝ} (h : LunarNear c T)
    {m k : ℤ} {S : ℚ} {s : ℝ} {n : ℕ} (hn : n ≤ 9) (hs : |s| ≤ 1) (nS : Near S s (1.9e-10 * n + 2e-13 + 8 * uu)) :
    |(k : ℝ) * lunarFactor (lunarConstants T) m * s| ≤ 1.12 * |(k : ℝ)| ∧
      Near (fl (lunarCoeffF fl c m k * S)) ((k : ℝ) * lunarFactor (lunarConstants T) m * s)
        (|(k : ℝ)| * (2.13e-10 * n + 3e-13) + 1e-40) := by
  have n0 : (0 : ℝ) ≤ n := Nat.cast_nonneg _
  have n9 : (n : ℝ) ≤ 9 := by exact_mod_cast hn
  have k0 := abs_nonneg (k : ℝ)
  have key : |(k : ℝ) * lunarFactor (lunarConstants T) m| ≤ 1.12 * |(k : ℝ)| ∧
      Near (lunarCoeffF fl c m k) ((k : ℝ) * lunarFactor (lunarConstants T) m) (|(k : ℝ)| * 4e-15 + 1e-43) := by
    unfold lunarFactor lunarCoeffF
    have kn : Near (k : ℚ) (k : ℝ) 0 := by simp [Near]
    split_ifs with h1 h2
    · obtain ⟨e1, e2⟩ := h.E
      have a : |(k : ℝ) * (lunarConstants T).E| ≤ 1.06 * |(k : ℝ)| := by
        rw [abs_mul, mul_comm]; exact mul_le_mul_of_nonneg_right e2 k0
      refine ⟨a.trans (by norm_num; linarith), (kn.mul e1 le_rfl e2).rnd hf a ?_⟩
      generalize |(k : ℝ)| = q at *
      rw [uuR, wwR]; norm_num; linarith
    · obtain ⟨e1, e2⟩ := h.E2
      have a : |(k : ℝ) * (lunarConstants T).E2| ≤ 1.12 * |(k : ℝ)| := by
        rw [abs_mul, mul_comm]; exact mul_le_mul_of_nonneg_right e2 k0
      refine ⟨a, (kn.mul e1 le_rfl e2).rnd hf a ?_⟩
      generalize |(k : ℝ)| = q at *
      rw [uuR, wwR]; norm_num; linarith
    · rw [mul_one]
      exact ⟨by norm_num; linarith, kn.mono (by positivity)⟩
  obtain ⟨a, nc⟩ := key
  have b : |(k : ℝ) * lunarFactor (lunarConstants T) m * s| ≤ 1.12 * |(k : ℝ)| := by
    rw [abs_mul]
    exact (mul_le_mul a hs (abs_nonneg _) ((abs_nonneg _).trans a)).trans (by rw [mul_one])
  refine ⟨b, (nc.mul nS a hs).rnd hf b ?_⟩
  have kn := mul_nonneg k0 n0
  have kn9 := mul_le_mul_of_nonneg_left n9 k0
  generalize (k : ℝ) * lunarFactor (lunarConstants T) m = z at *
  rw [uuR, wwR]
  generalize |(k : ℝ)| = q at *
  generalize (n : ℝ) = p at *
  norm_num
  nlinarith

/-- Adding up rounded terms, with a bound of the whole sum. -/
theorem foldG_near {fl : ℚ → ℚ} (hf : FloatLike fl) {α : Type} (l : List α) (f : α → ℚ) (g : α → ℝ) (m w : α → ℚ)
    (h : ∀ r ∈ l, |g r| ≤ m r ∧ Near (f r) (g r) (w r)) (A : ℚ) (a e : ℝ) (S : ℝ)
    (n : Near A a e) (hS : |a| + ((l.map m).sum : ℚ) ≤ S) (hS0 : 1 ≤ S)
    (he : e + ((l.map w).sum : ℚ) + 2 * uu * (S + 1) * l.length ≤ 1) :
    Near (l.foldl (fun s r => fl (s + f r)) A) (a + (l.map g).sum)
      (e + ((l.map w).sum : ℚ) + 2 * uu * (S + 1) * l.length) := by
  induction l generalizing A a e with
  | nil => simpa using n
  | cons r l ih =>
    obtain ⟨h1, h2⟩ := h r (List.mem_cons_self ..)
    simp only [List.map_cons, List.sum_cons, List.foldl_cons, List.length_cons] at hS he ⊢
    have m0 : (0 : ℝ) ≤ ((l.map m).sum : ℚ) := by
      have : 0 ≤ (l.map m).sum := by
        apply List.sum_nonneg
        intro y hy
        obtain ⟨x, hx, rfl⟩ := List.mem_map.mp hy
        have := (abs_nonneg _).trans (h x (List.mem_cons_of_mem _ hx)).1
        exact_mod_cast this
      exact_mod_cast this
    have w0 : (0 : ℝ) ≤ ((l.map w).sum : ℚ) := by
      have : 0 ≤ (l.map w).sum := by
        apply List.sum_nonneg
        intro y hy
        obtain ⟨x, hx, rfl⟩ := List.mem_map.mp hy
        have := (h x (List.mem_cons_of_mem _ hx)).2.nonneg
        exact_mod_cast this
      exact_mod_cast this
    generalize (l.map m).sum = σ at *
    generalize (l.map w).sum = ω at *
    push_cast at hS he
    have l0 : (0 : ℝ) ≤ l.length := Nat.cast_nonneg _
    have u0 := uu_posR
    have g0 := (abs_nonneg _).trans h1
    have w1 := h2.nonneg
    have ab : |a + g r| ≤ S := (abs_add_le _ _).trans (by linarith)
    have e0 := n.nonneg
    have p : 0 ≤ 2 * (uu : ℝ) * (S + 1) * l.length := by positivity
    have p1 : 0 ≤ 2 * (uu : ℝ) * (S + 1) := by positivity
    have ew : e + w r ≤ 1 := by linarith
    have n' := (n.add h2).rnd hf ab (e' := e + w r + 2 * uu * (S + 1)) (by
      have : (uu : ℝ) * (S + (e + w r) + ww) ≤ uu * (2 * (S + 1)) := by
        apply mul_le_mul_of_nonneg_left _ u0.le
        rw [wwR]; norm_num; linarith
      linarith)
    have := ih (fun x hx => h x (List.mem_cons_of_mem _ hx)) _ _ _ n'
      (by linarith [abs_add_le a (g r)])
      (by linarith)
    rw [← add_assoc]
    refine this.mono (le_of_eq ?_)
    push_cast; ring

/-- Rows with their multipliers. -/
def rowN (d m m1 f : ℤ) : ℕ := d.natAbs + m.natAbs + m1.natAbs + f.natAbs

/-- Error and size of a term. -/
def termW (d m m1 f k : ℤ) : ℚ := |k| * (2.13e-10 * rowN d m m1 f + 3e-13) + 1e-40
def termM (k : ℤ) : ℚ := 1.12 * |k|

theorem rowN_cast (d m m1 f : ℤ) : ((|d| + |m| + |m1| + |f| : ℤ) : ℝ) = (rowN d m m1 f : ℕ) := by
  unfold rowN
  push_cast
  simp only [Nat.cast_natAbs, Int.cast_abs]

theorem lunarSinF_near {fl : ℚ → ℚ} (hf : FloatLike fl) {lib : NumLib} {D : ℕ} (hl : lib.Good fl D)
    {c : LunarConstantsF} {T : ℝ} (h : LunarNear c T) (d m m1 f k : ℤ) (hn : rowN d m m1 f ≤ 9) :
    |(k : ℝ) * lunarFactor (lunarConstants T) m * sin (lunarArg T d m m1 f)| ≤ (termM k : ℚ) ∧
      Near (fl (lunarCoeffF fl c m k * lib.sinF (lunarArgF fl c d m m1 f)))
        ((k : ℝ) * lunarFactor (lunarConstants T) m * sin (lunarArg T d m m1 f)) (termW d m m1 f k : ℚ) := by
  have a := lunarArgF_near hf h (t1 := d) (t2 := m) (t3 := m1) (t4 := f) (by
    unfold rowN at hn; simp only [Int.abs_eq_natAbs]; omega)
  rw [rowN_cast] at a
  have := lunarTermF_near hf h (m := m) (k := k) hn (abs_sin_le_one _) (a.sin hl.sin)
  unfold termM termW
  push_cast
  exact this

theorem lunarCosF_near {fl : ℚ → ℚ} (hf : FloatLike fl) {lib : NumLib} {D : ℕ} (hl : lib.Good fl D)
    {c : LunarConstantsF} {T : ℝ} (h : LunarNear c T) (d m m1 f k : ℤ) (hn : rowN d m m1 f ≤ 9) :
    |(k : ℝ) * lunarFactor (lunarConstants T) m * cos (lunarArg T d m m1 f)| ≤ (termM k : ℚ) ∧
      Near (fl (lunarCoeffF fl c m k * lib.cosF (lunarArgF fl c d m m1 f)))
        ((k : ℝ) * lunarFactor (lunarConstants T) m * cos (lunarArg T d m m1 f)) (termW d m m1 f k : ℚ) := by
  have a := lunarArgF_near hf h (t1 := d) (t2 := m) (t3 := m1) (t4 := f) (by
    unfold rowN at hn; simp only [Int.abs_eq_natAbs]; omega)
  rw [rowN_cast] at a
  have := lunarTermF_near hf h (m := m) (k := k) hn (abs_cos_le_one _) (a.cos hl.cos)
  unfold termM termW
  push_cast
  exact this

theorem lunarLR_rows : (∀ r ∈ Data.lunarLR, rowN r.1 r.2.1 r.2.2.1 r.2.2.2.1 ≤ 9) ∧ Data.lunarLR.length ≤ 100 ∧
    (Data.lunarLR.map fun r : LRow => termM r.2.2.2.2.1).sum ≤ 1.1e7 ∧
    (Data.lunarLR.map fun r : LRow => termW r.1 r.2.1 r.2.2.1 r.2.2.2.1 r.2.2.2.2.1).sum ≤ 4e-3 ∧
    (Data.lunarLR.map fun r : LRow => termM r.2.2.2.2.2).sum ≤ 3.5e7 ∧
    (Data.lunarLR.map fun r : LRow => termW r.1 r.2.1 r.2.2.1 r.2.2.2.1 r.2.2.2.2.2).sum ≤ 1.3e-2 := by
  decide +kernel

theorem lunarB_rows : (∀ r ∈ Data.lunarB, rowN r.1 r.2.1 r.2.2.1 r.2.2.2.1 ≤ 9) ∧ Data.lunarB.length ≤ 100 ∧
    (Data.lunarB.map fun r : BRow => termM r.2.2.2.2).sum ≤ 1.1e7 ∧
    (Data.lunarB.map fun r : BRow => termW r.1 r.2.1 r.2.2.1 r.2.2.2.1 r.2.2.2.2).sum ≤ 3e-3 := by
  decide +kernel

/-- The whole sum, with the tables' bounds. -/
theorem lunarFold_near {fl : ℚ → ℚ} (hf : FloatLike fl) {α : Type} (l : List α) (f : α → ℚ) (g : α → ℝ) (m w : α → ℚ)
    (h : ∀ r ∈ l, |g r| ≤ m r ∧ Near (f r) (g r) (w r)) (hl : l.length ≤ 100) {S W : ℚ} (hS : (l.map m).sum ≤ S)
    (hS1 : 1 ≤ S) (hS2 : S ≤ 1e8) (hW : (l.map w).sum ≤ W) (hW1 : W ≤ 1 / 2) :
    Near (l.foldl (fun s r => fl (s + f r)) 0) ((l.map g).sum) (W + 3e-6 : ℚ) := by
  have l1 : ((l.length : ℕ) : ℝ) ≤ 100 := by exact_mod_cast hl
  have l0 : (0 : ℝ) ≤ l.length := Nat.cast_nonneg _
  have s1 : (1 : ℝ) ≤ S := by exact_mod_cast hS1
  have s2 : (S : ℝ) ≤ 1e8 := by have := (Rat.cast_le (K := ℝ)).mpr hS2; push_cast at this; exact this
  have s3 : (((l.map m).sum : ℚ) : ℝ) ≤ S := by exact_mod_cast hS
  have w3 : (((l.map w).sum : ℚ) : ℝ) ≤ W := by exact_mod_cast hW
  have w4 : (W : ℝ) ≤ 1 / 2 := by have := (Rat.cast_le (K := ℝ)).mpr hW1; push_cast at this; exact this
  have b : 2 * (uu : ℝ) * (S + 1) * l.length ≤ 3e-6 := by
    have : ((S : ℝ) + 1) * l.length ≤ (1e8 + 1) * 100 := mul_le_mul (by linarith) l1 l0 (by norm_num)
    rw [mul_assoc, uuR]
    generalize ((S : ℝ) + 1) * l.length = z at *
    norm_num at this ⊢; linarith
  have n0 : Near 0 (0 : ℝ) 0 := by simp [Near]
  have := foldG_near hf l f g m w h 0 0 0 S n0 (by rw [abs_zero, zero_add]; exact s3) s1 (by
    generalize (l.map w).sum = ω at *
    norm_num at b w4 ⊢; linarith)
  rw [zero_add] at this
  refine this.mono ?_
  generalize (l.map w).sum = ω at *
  push_cast
  linarith

theorem lonSumF_near {fl : ℚ → ℚ} (hf : FloatLike fl) {lib : NumLib} {D : ℕ} (hl : lib.Good fl D)
    {c : LunarConstantsF} {T : ℝ} (h : LunarNear c T) :
    Near (Data.lunarLR.foldl (fun lsum r =>
      let (tD, tM, tM1, tF, tl, _) := r
      fl (lsum + fl (lunarCoeffF fl c tM tl * lib.sinF (lunarArgF fl c tD tM tM1 tF)))) 0) (lonSum T) 4.1e-3 := by
  obtain ⟨h1, h2, h3, h4, -, -⟩ := lunarLR_rows
  have := lunarFold_near hf Data.lunarLR
    (fun r : LRow => fl (lunarCoeffF fl c r.2.1 r.2.2.2.2.1 * lib.sinF (lunarArgF fl c r.1 r.2.1 r.2.2.1 r.2.2.2.1)))
    _ _ _ (fun r hr => lunarSinF_near hf hl h r.1 r.2.1 r.2.2.1 r.2.2.2.1 r.2.2.2.2.1 (h1 r hr)) h2 h3
    (by norm_num) (by norm_num) h4 (by norm_num)
  exact this.mono (by norm_num)

theorem radSumF_near {fl : ℚ → ℚ} (hf : FloatLike fl) {lib : NumLib} {D : ℕ} (hl : lib.Good fl D)
    {c : LunarConstantsF} {T : ℝ} (h : LunarNear c T) :
    Near (Data.lunarLR.foldl (fun rsum r =>
      let (tD, tM, tM1, tF, _, tr) := r
      fl (rsum + fl (lunarCoeffF fl c tM tr * lib.cosF (lunarArgF fl c tD tM tM1 tF)))) 0) (radSum T) 1.31e-2 := by
  obtain ⟨h1, h2, -, -, h3, h4⟩ := lunarLR_rows
  have := lunarFold_near hf Data.lunarLR
    (fun r : LRow => fl (lunarCoeffF fl c r.2.1 r.2.2.2.2.2 * lib.cosF (lunarArgF fl c r.1 r.2.1 r.2.2.1 r.2.2.2.1)))
    _ _ _ (fun r hr => lunarCosF_near hf hl h r.1 r.2.1 r.2.2.1 r.2.2.2.1 r.2.2.2.2.2 (h1 r hr)) h2 h3
    (by norm_num) (by norm_num) h4 (by norm_num)
  exact this.mono (by norm_num)

theorem latSumF_near {fl : ℚ → ℚ} (hf : FloatLike fl) {lib : NumLib} {D : ℕ} (hl : lib.Good fl D)
    {c : LunarConstantsF} {T : ℝ} (h : LunarNear c T) :
    Near (Data.lunarB.foldl (fun bsum r =>
      let (tD, tM, tM1, tF, tb) := r
      fl (bsum + fl (lunarCoeffF fl c tM tb * lib.sinF (lunarArgF fl c tD tM tM1 tF)))) 0) (latSum T) 3.1e-3 := by
  obtain ⟨h1, h2, h3, h4⟩ := lunarB_rows
  have := lunarFold_near hf Data.lunarB
    (fun r : BRow => fl (lunarCoeffF fl c r.2.1 r.2.2.2.2 * lib.sinF (lunarArgF fl c r.1 r.2.1 r.2.2.1 r.2.2.2.1)))
    _ _ _ (fun r hr => lunarSinF_near hf hl h r.1 r.2.1 r.2.2.1 r.2.2.2.1 r.2.2.2.2 (h1 r hr)) h2 h3
    (by norm_num) (by norm_num) h4 (by norm_num)
  exact this.mono (by norm_num)

theorem AngOk.abs {X : ℚ} {x : ℝ} (h : AngOk X x) : |(X : ℝ)| ≤ 6.2832 := by
  have h1 : (0 : ℝ) ≤ X := by exact_mod_cast h.r.1
  have h2 : (X : ℝ) ≤ pi2F := by exact_mod_cast h.r.2
  rw [abs_of_nonneg h1]
  exact h2.trans pi2F_lt

theorem AngOk.add {fl : ℚ → ℚ} (hf : FloatLike fl) {X Y : ℚ} {x y : ℝ} (hX : AngOk X x) (hY : AngOk Y y) :
    NearA (fl (X + Y)) (x + y) 4e-10 := by
  have a := hX.abs
  have b := hY.abs
  obtain ⟨-, k, n⟩ := hX
  obtain ⟨-, j, m⟩ := hY
  have r := hf.errR (X + Y)
  refine ⟨k + j, ?_⟩
  unfold Near at *
  push_cast at r ⊢
  rw [show (fl (X + Y) : ℝ) - (x + y + (k + j) * (2 * π)) = (fl (X + Y) - (X + Y)) + (X - (x + k * (2 * π))) +
    (Y - (y + j * (2 * π))) by ring]
  have q := abs_add_le (X : ℝ) Y
  have r2 : |(fl (X + Y) : ℝ) - (X + Y)| ≤ 1e-12 := by
    rw [uuR, wwR] at r
    refine r.trans ?_
    generalize |(X : ℝ) + Y| = z at *
    norm_num at a b ⊢; linarith
  refine (abs_add_le _ _).trans ((add_le_add ((abs_add_le _ _).trans (add_le_add r2 n)) m).trans (by norm_num))

theorem AngOk.sub {fl : ℚ → ℚ} (hf : FloatLike fl) {X Y : ℚ} {x y : ℝ} (hX : AngOk X x) (hY : AngOk Y y) :
    NearA (fl (X - Y)) (x - y) 4e-10 := by
  have a := hX.abs
  have b := hY.abs
  obtain ⟨-, k, n⟩ := hX
  obtain ⟨-, j, m⟩ := hY
  have r := hf.errR (X - Y)
  refine ⟨k - j, ?_⟩
  unfold Near at *
  push_cast at r ⊢
  rw [show (fl (X - Y) : ℝ) - (x - y + (k - j) * (2 * π)) = (fl (X - Y) - (X - Y)) + (X - (x + k * (2 * π))) +
    -(Y - (y + j * (2 * π))) by ring]
  have q := abs_sub (X : ℝ) Y
  have r2 : |(fl (X - Y) : ℝ) - (X - Y)| ≤ 1e-12 := by
    rw [uuR, wwR] at r
    refine r.trans ?_
    generalize |(X : ℝ) - Y| = z at *
    norm_num at a b ⊢; linarith
  rw [← abs_neg] at m
  refine (abs_add_le _ _).trans ((add_le_add ((abs_add_le _ _).trans (add_le_add r2 n)) m).trans (by norm_num))

/-- One of the additional terms. -/
theorem extra_near {fl : ℚ → ℚ} (hf : FloatLike fl) {lib : NumLib} {D : ℕ} (hl : lib.Good fl D) {X : ℚ} {x : ℝ}
    (h : NearA X x 4e-10) (k : ℚ) (hk : |k| ≤ 4000) :
    |(k : ℝ) * sin x| ≤ 4000 ∧ Near (fl (k * lib.sinF X)) ((k : ℝ) * sin x) 1.7e-6 := by
  have hk' : |(k : ℝ)| ≤ 4000 := by exact_mod_cast hk
  have b : |(k : ℝ) * sin x| ≤ 4000 := by
    rw [abs_mul]
    exact (mul_le_mul hk' (abs_sin_le_one x) (abs_nonneg _) (by norm_num)).trans (by norm_num)
  refine ⟨b, ((near_self k).mul (h.sin hl.sin) hk' (abs_sin_le_one _)).rnd hf b ?_⟩
  rw [uuR, wwR]; norm_num

theorem nut_small {jd : ℝ} (h : |jcent jd| ≤ 20) : |nutationInLongitude jd| ≤ 1e-4 := by
  have := (nutation_small jd (h.trans (by norm_num))).1
  refine this.le.trans ?_
  unfold arcsec
  have := Real.pi_lt_d4
  norm_num at this ⊢; linarith

/-- The longitude up to whole turns, with the reduced mean longitude of the computation. -/
theorem lunarLongitudeF_near {fl : ℚ → ℚ} (hf : FloatLike fl) {lib : NumLib} {D : ℕ} (hl : lib.Good fl D)
    {jd : ℚ} (h : |jcent jd| ≤ 20) :
    NearA (lunarLongitudeF fl lib jd) (lunarLongitude jd) 2.7e-10 ∧ |(lunarLongitudeF fl lib jd : ℝ)| ≤ 6.46 := by
  have hc := lunarConstantsF_near hf h
  have n := lonSumF_near hf hl hc
  have hn := nutationInLongitudeF_near hf hl (jd := jd) (h.trans (by norm_num))
  have hb := nut_small h
  have b := lonSum_abs h
  obtain ⟨a1, n1⟩ := extra_near hf hl (hc.A1.n.mono (by norm_num)) 3958 (by norm_num)
  obtain ⟨a2, n2⟩ := extra_near hf hl (hc.L1.sub hf hc.F) 1962 (by norm_num)
  obtain ⟨a3, n3⟩ := extra_near hf hl (hc.A2.n.mono (by norm_num)) 318 (by norm_num)
  have hL := hc.L1
  rw [lunarLongitude_eq]
  unfold lunarLongitudeF
  simp only
  generalize lunarConstantsF fl (jcentF fl jd) = c at *
  generalize nutationInLongitudeF fl lib jd = N at *
  generalize nutationInLongitude jd = ν at *
  generalize lonSum (jcent jd) = s at *
  push_cast at a1 a2 a3 n1 n2 n3
  generalize (3958 : ℝ) * sin (polyR kA1 (jcent jd)) = x1 at *
  generalize (1962 : ℝ) * sin (polyR kL1 (jcent jd) - polyR kF (jcent jd)) = x2 at *
  generalize (318 : ℝ) * sin (polyR kA2 (jcent jd)) = x3 at *
  have b2 : |x1 + x2| ≤ 8000 := (abs_add_le _ _).trans ((add_le_add a1 a2).trans (by norm_num))
  have m2 := (n1.add n2).rnd hf b2 (e' := 3.5e-6) (by rw [uuR, wwR]; norm_num)
  have b3 : |x1 + x2 + x3| ≤ 12000 := (abs_add_le _ _).trans ((add_le_add b2 a3).trans (by norm_num))
  have m3 := (m2.add n3).rnd hf b3 (e' := 5.3e-6) (by rw [uuR, wwR]; norm_num)
  have b4 : |s + (x1 + x2 + x3)| ≤ 9242000 := (abs_add_le _ _).trans ((add_le_add b b3).trans (by norm_num))
  have m4 := (n.add m3).rnd hf b4 (e' := 4.2e-3) (by rw [uuR, wwR]; norm_num)
  generalize x1 + x2 + x3 = x at *
  generalize fl (List.foldl _ _ _ + _) = Y at *
  have b5 : |(s + x) / 1000000| ≤ 9.242 := by
    rw [abs_div, abs_of_pos (by norm_num : (0 : ℝ) < 1000000), div_le_iff₀ (by norm_num)]
    exact b4.trans (by norm_num)
  have m5 := (m4.div_const (k := 1000000) (by norm_num)).rnd hf (M := 9.242) (e' := 4.21e-9) (by
    push_cast; exact b5) (by rw [uuR, wwR]; norm_num)
  push_cast at m5
  generalize (s + x) / 1000000 = z at *
  have m6 := dToRF_near hf m5 b5
  have b6 : |dToR z| ≤ 0.1614 := (dToR_abs_le z).trans (by
    generalize |z| = q at *
    norm_num at b5 ⊢; linarith)
  have m6 := m6.mono (e' := 7.4e-11) (by rw [uuR, wwR]; norm_num)
  generalize dToRF fl _ = Z at *
  generalize dToR z = ζ at *
  have hL' : NearA c.L1 (modpi2 (polyR kL1 (jcent jd))) 1.9e-10 := by
    obtain ⟨k, hk⟩ := hL.n
    obtain ⟨j, hj⟩ := (modpi2_spec (polyR kL1 (jcent jd))).2.2
    refine ⟨k - j, ?_⟩
    have : modpi2 (polyR kL1 (jcent jd)) + ((k - j : ℤ) : ℝ) * (2 * π) = polyR kL1 (jcent jd) + k * (2 * π) := by
      rw [hj]; push_cast; ring
    rw [this]; exact hk
  obtain ⟨p1, p2⟩ := NearA.add_fl hf hL' hL.abs m6 b6
  have p2' := p2.trans (c := (6.4447 : ℝ)) (by rw [uuR, wwR]; norm_num)
  have p1' := p1.mono (e' := 2.65e-10) (by rw [uuR, wwR]; norm_num)
  obtain ⟨q1, q2⟩ := NearA.add_fl hf p1' p2' hn hb
  exact ⟨q1.mono (by rw [uuR, wwR]; norm_num), q2.trans (by rw [uuR, wwR]; norm_num)⟩

theorem lunarLatitudeF_near {fl : ℚ → ℚ} (hf : FloatLike fl) {lib : NumLib} {D : ℕ} (hl : lib.Good fl D)
    {jd : ℚ} (h : |jcent jd| ≤ 20) : Near (lunarLatitudeF fl lib jd) (lunarLatitude jd) 6e-11 := by
  have hc := lunarConstantsF_near hf h
  have n := latSumF_near hf hl hc
  have b := latSum_abs h
  obtain ⟨a1, n1⟩ := extra_near hf hl (hc.L1.n.mono (by norm_num)) (-2235) (by norm_num)
  obtain ⟨a2, n2⟩ := extra_near hf hl (hc.A3.n.mono (by norm_num)) 382 (by norm_num)
  obtain ⟨a3, n3⟩ := extra_near hf hl (hc.A1.sub hf hc.F) 175 (by norm_num)
  obtain ⟨a4, n4⟩ := extra_near hf hl (hc.A1.add hf hc.F) 175 (by norm_num)
  obtain ⟨a5, n5⟩ := extra_near hf hl (hc.L1.sub hf hc.M1) 127 (by norm_num)
  obtain ⟨a6, n6⟩ := extra_near hf hl (hc.L1.add hf hc.M1) 115 (by norm_num)
  rw [lunarLatitude_eq]
  unfold lunarLatitudeF
  simp only
  generalize lunarConstantsF fl (jcentF fl jd) = c at *
  generalize latSum (jcent jd) = s at *
  push_cast at a1 a2 a3 a4 a5 a6 n1 n2 n3 n4 n5 n6
  generalize (-2235 : ℝ) * sin (polyR kL1 (jcent jd)) = x1 at *
  generalize (382 : ℝ) * sin (polyR kA3 (jcent jd)) = x2 at *
  generalize (175 : ℝ) * sin (polyR kA1 (jcent jd) - polyR kF (jcent jd)) = x3 at *
  generalize (175 : ℝ) * sin (polyR kA1 (jcent jd) + polyR kF (jcent jd)) = x4 at *
  generalize (127 : ℝ) * sin (polyR kL1 (jcent jd) - polyR kM1 (jcent jd)) = x5 at *
  generalize (115 : ℝ) * sin (polyR kL1 (jcent jd) + polyR kM1 (jcent jd)) = x6 at *
  have b2 : |x1 + x2| ≤ 8000 := (abs_add_le _ _).trans ((add_le_add a1 a2).trans (by norm_num))
  have m2 := (n1.add n2).rnd hf b2 (e' := 3.5e-6) (by rw [uuR, wwR]; norm_num)
  have b3 : |x1 + x2 + x3| ≤ 12000 := (abs_add_le _ _).trans ((add_le_add b2 a3).trans (by norm_num))
  have m3 := (m2.add n3).rnd hf b3 (e' := 5.3e-6) (by rw [uuR, wwR]; norm_num)
  have b4 : |x1 + x2 + x3 + x4| ≤ 16000 := (abs_add_le _ _).trans ((add_le_add b3 a4).trans (by norm_num))
  have m4 := (m3.add n4).rnd hf b4 (e' := 7.1e-6) (by rw [uuR, wwR]; norm_num)
  have b5 : |x1 + x2 + x3 + x4 + x5| ≤ 20000 := (abs_add_le _ _).trans ((add_le_add b4 a5).trans (by norm_num))
  have m5 := (m4.add n5).rnd hf b5 (e' := 8.9e-6) (by rw [uuR, wwR]; norm_num)
  have b6 : |x1 + x2 + x3 + x4 + x5 - x6| ≤ 24000 := (abs_sub _ _).trans ((add_le_add b5 a6).trans (by norm_num))
  have m6 := (m5.sub n6).rnd hf b6 (e' := 1.1e-5) (by rw [uuR, wwR]; norm_num)
  have b7 : |s + (x1 + x2 + x3 + x4 + x5 - x6)| ≤ 6114000 :=
    (abs_add_le _ _).trans ((add_le_add b b6).trans (by norm_num))
  have m7 := (n.add m6).rnd hf b7 (e' := 3.2e-3) (by rw [uuR, wwR]; norm_num)
  generalize x1 + x2 + x3 + x4 + x5 - x6 = x at *
  generalize fl (List.foldl _ _ _ + _) = Y at *
  have b8 : |(s + x) / 1000000| ≤ 6.114 := by
    rw [abs_div, abs_of_pos (by norm_num : (0 : ℝ) < 1000000), div_le_iff₀ (by norm_num)]
    exact b7.trans (by norm_num)
  have m8 := (m7.div_const (k := 1000000) (by norm_num)).rnd hf (M := 6.114) (e' := 3.21e-9) (by
    push_cast; exact b8) (by rw [uuR, wwR]; norm_num)
  push_cast at m8
  exact (dToRF_near hf m8 b8).mono (by rw [uuR, wwR]; norm_num)

theorem lunarRadiusF_near {fl : ℚ → ℚ} (hf : FloatLike fl) {lib : NumLib} {D : ℕ} (hl : lib.Good fl D)
    {jd : ℚ} (h : |jcent jd| ≤ 20) : Near (lunarRadiusF fl lib jd) (lunarRadius jd) 1.4e-5 := by
  have hc := lunarConstantsF_near hf h
  have n := radSumF_near hf hl hc
  have b := radSum_abs h
  rw [lunarRadius_eq]
  unfold lunarRadiusF
  simp only
  generalize radSum (jcent jd) = s at *
  have b1 : |s / 1000| ≤ 29800 := by
    rw [abs_div, abs_of_pos (by norm_num : (0 : ℝ) < 1000), div_le_iff₀ (by norm_num)]
    exact b.trans (by norm_num)
  have m1 := (n.div_const (k := 1000) (by norm_num)).rnd hf (M := 29800) (e' := 1.32e-5) (by
    push_cast; exact b1) (by rw [uuR, wwR]; norm_num)
  push_cast at m1
  have m0 : Near (fl 385000.56) (385000.56 : ℝ) 1e-10 := by
    have := (near_self 385000.56).rnd hf (M := 385001) (e' := 1e-10) (by norm_num) (by rw [uuR, wwR]; norm_num)
    push_cast at this
    exact this
  have a0 : |(385000.56 : ℝ)| ≤ 385001 := by norm_num
  exact (m0.add m1).rnd hf (M := 414801) ((abs_add_le _ _).trans ((add_le_add a0 b1).trans (by norm_num)))
    (by rw [uuR, wwR]; norm_num)

end Verif

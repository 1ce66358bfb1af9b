import Verif.Props.DeltaT
import Verif.Spec.DeltaTChecks
import Verif.Lemmas.FloatApprox
import Verif.Lemmas.Cronus

/-!
# C96: ΔT in binary64 at all times, and the values of the tests
-/

namespace Verif
open Spec

variable {fl : ℚ → ℚ}

theorem horner_cast (t : ℚ) (l : List ℚ) :
    ((horner (fun x : ℚ => x) t l : ℚ) : ℝ) = polyR (l.map fun q : ℚ => (q : ℝ)) t := by
  unfold polyR
  induction l with
  | nil => simp [horner]
  | cons a l ih =>
    cases l with
    | nil => simp [horner]
    | cons b l =>
      rw [List.map_cons, List.map_cons, horner_cons2, horner_cons2]
      rw [List.map_cons] at ih
      push_cast
      rw [ih]

/-- The year as used by the formulas, exact. -/
def midYear (yr mo : ℤ) : ℚ := yr + ((mo : ℚ) - 1 / 2) / 12

theorem midYear_bounds {mo : ℤ} (yr : ℤ) (h : 1 ≤ mo ∧ mo ≤ 12) :
    (yr : ℝ) ≤ (midYear yr mo : ℚ) ∧ ((midYear yr mo : ℚ) : ℝ) ≤ yr + 1 := by
  have h1 : (1 : ℝ) ≤ mo := by exact_mod_cast h.1
  have h2 : (mo : ℝ) ≤ 12 := by exact_mod_cast h.2
  unfold midYear
  push_cast
  constructor <;> linarith

theorem midMonth_near (hf : FloatLike fl) {yr mo : ℤ} (hy : |yr| ≤ 10000) (h : 1 ≤ mo ∧ mo ≤ 12) :
    Near (midMonth fl yr mo) (midYear yr mo : ℚ) 1.4e-12 := by
  have h1 : (1 : ℝ) ≤ mo := by exact_mod_cast h.1
  have h2 : (mo : ℝ) ≤ 12 := by exact_mod_cast h.2
  have b := midYear_bounds yr h
  have y1 : |(yr : ℝ)| ≤ 10000 := by exact_mod_cast hy
  rw [abs_le] at y1
  have n1 := (near_self (((mo : ℚ) - 1 / 2) / 12)).rnd hf (M := 1) (e' := 1.2e-16) (by
    push_cast; rw [abs_le]; constructor <;> linarith) (by rw [uuR, wwR]; norm_num)
  have n2 := ((near_self (yr : ℚ)).add n1).rnd hf (M := 10001) (e' := 1.4e-12) (by
    have e : ((yr : ℚ) : ℝ) + ((((mo : ℚ) - 1 / 2) / 12 : ℚ) : ℝ) = (midYear yr mo : ℚ) := by
      unfold midYear; push_cast; ring
    rw [e, abs_le]; constructor <;> linarith) (by rw [uuR, wwR]; norm_num)
  unfold midMonth
  have e : ((yr : ℚ) : ℝ) + ((((mo : ℚ) - 1 / 2) / 12 : ℚ) : ℝ) = (midYear yr mo : ℚ) := by
    unfold midYear; push_cast; ring
  rw [e] at n2
  exact n2

/-- The argument of a polynomial. -/
theorem deltaTArg_near (hf : FloatLike fl) {Y : ℚ} {y : ℝ} (hy : Near Y y 1.4e-12) {base : ℚ} {T et : ℝ} (hT : |y - base| / 100 ≤ T)
    (he : 1.4e-14 + 1.01 * uu * (2 * T + ww) + 1e-29 ≤ et) : Near (fl (fl (Y - base) / 100)) ((y - base) / 100) et := by
  have T0 : 0 ≤ T := le_trans (by positivity) hT
  have n1 := (hy.sub (near_self base)).fl hf (M := 100 * T) (by linarith)
  have n2 := (n1.div_const (k := 100) (by norm_num)).fl hf (M := T) (by
    push_cast; rw [abs_div, abs_of_pos (by norm_num : (0 : ℝ) < 100)]; exact hT)
  push_cast at n2
  refine n2.mono (le_trans ?_ he)
  rw [uuR, wwR]
  norm_num
  linarith

/-- A polynomial of the formulas. -/
theorem deltaTPoly_near (hf : FloatLike fl) {Y : ℚ} {y : ℚ} (hy : Near Y y 1.4e-12) {base T et : ℚ}
    (hT : |(y : ℝ) - base| / 100 ≤ T) (he : (1.4e-14 + 1.01 * uu * (2 * T + ww) + 1e-29 : ℝ) ≤ et) (l : List ℚ)
    (hM : gM T (l.map fun q => (|q|, uu * (|q| + ww))) ≤ 600000)
    (hE : gE T et (l.map fun q => (|q|, uu * (|q| + ww))) ≤ 8e-10) :
    |((horner (fun x : ℚ => x) ((y - base) / 100) l : ℚ) : ℝ)| ≤ 600000 ∧
      Near (horner fl (fl (fl (Y - base) / 100)) (l.map fl)) (horner (fun x : ℚ => x) ((y - base) / 100) l : ℚ) 8e-10 := by
  have n := deltaTArg_near hf hy hT he
  have e : (((y - base) / 100 : ℚ) : ℝ) = ((y : ℝ) - base) / 100 := by push_cast; rfl
  have := hornerLit_near hf (T := T) (et := et) (TF := fl (fl (Y - base) / 100)) n (by
    rw [abs_div, abs_of_pos (by norm_num : (0 : ℝ) < 100)]; exact hT) l hM hE
  rw [horner_cast, e]
  push_cast at this
  exact this

/-- The last step of the formulas. -/
theorem deltaTFinal_near (hf : FloatLike fl) {Y y R r : ℚ} (hy : Near Y y 1.4e-12) (hb : |(y : ℝ)| ≤ 10001) (hr : |(r : ℝ)| ≤ 600000 ∧ Near R r 8e-10) :
    |((r + -0.000012932 * ((y - 1955) * (y - 1955)) : ℚ) : ℝ)| ≤ 602000 ∧
    Near (fl (R + fl (fl (-0.000012932) * fl (fl (Y - 1955) * fl (Y - 1955)))))
      (r + -0.000012932 * ((y - 1955) * (y - 1955)) : ℚ) 1e-9 := by
  obtain ⟨hR, hr⟩ := hr
  rw [abs_le] at hb
  have b0 : |(y : ℝ) - (1955 : ℚ)| ≤ 11956 := by push_cast; rw [abs_le]; constructor <;> linarith
  have n1 := (hy.sub (near_self 1955)).rnd hf (e' := 2.8e-12) b0 (by rw [uuR, wwR]; norm_num)
  have b1 : |((y : ℝ) - (1955 : ℚ)) * ((y : ℝ) - (1955 : ℚ))| ≤ 11956 * 11956 := by
    rw [abs_mul]; exact mul_le_mul b0 b0 (abs_nonneg _) (by norm_num)
  have n2 := (n1.mul n1 b0 b0).rnd hf (e' := 8.5e-8) b1 (by rw [uuR, wwR]; norm_num)
  have n3 := lit_near hf (-0.000012932)
  have b3 : |((-0.000012932 : ℚ) : ℝ)| ≤ 0.0000130 := by push_cast; rw [abs_neg, abs_of_pos (by norm_num)]; norm_num
  have n3' : Near (fl (-0.000012932)) ((-0.000012932 : ℚ) : ℝ) 1.5e-21 := n3.mono (by
    refine le_trans (mul_le_mul_of_nonneg_left (add_le_add_left b3 _) (by rw [uuR]; norm_num)) ?_
    rw [uuR, wwR]; norm_num)
  have n4 := (n3'.mul n2 b3 b1).rnd hf (M := 1900) (e' := 3e-12) (by
    rw [abs_mul]
    refine (mul_le_mul b3 b1 (abs_nonneg _) (by norm_num)).trans (by norm_num)) (by rw [uuR, wwR]; norm_num)
  have b5 : |(r : ℝ) + ((-0.000012932 : ℚ) : ℝ) * (((y : ℝ) - (1955 : ℚ)) * ((y : ℝ) - (1955 : ℚ)))| ≤ 602000 := by
    refine (abs_add_le _ _).trans ?_
    have : |((-0.000012932 : ℚ) : ℝ) * (((y : ℝ) - (1955 : ℚ)) * ((y : ℝ) - (1955 : ℚ)))| ≤ 1900 := by
      rw [abs_mul]
      refine (mul_le_mul b3 b1 (abs_nonneg _) (by norm_num)).trans (by norm_num)
    linarith
  have n5 := (hr.add n4).rnd hf (e' := 1e-9) b5 (by rw [uuR, wwR]; norm_num)
  have e : ((r + -0.000012932 * ((y - 1955) * (y - 1955)) : ℚ) : ℝ) =
      (r : ℝ) + ((-0.000012932 : ℚ) : ℝ) * (((y : ℝ) - (1955 : ℚ)) * ((y : ℝ) - (1955 : ℚ))) := by push_cast; ring
  rw [e]
  exact ⟨b5, n5⟩

theorem deltaTRecip_near (hf : FloatLike fl) : Near (fl (recip fl 0.007129)) ((1 : ℝ) / 0.007129) 5e-14 := by
  have n1 : Near (fl 0.007129) ((0.007129 : ℚ) : ℝ) 8e-19 := (near_self 0.007129).rnd hf (M := 0.007129) (by
    push_cast; rw [abs_of_pos (by norm_num)]) (by rw [uuR, wwR]; norm_num)
  push_cast at n1
  have l : (0.0071 : ℝ) ≤ (fl 0.007129 : ℚ) := by
    have := n1
    unfold Near at this
    rw [abs_le] at this
    norm_num at this ⊢
    linarith
  have n2 := (near_self 1).div n1 (by norm_num) l (by norm_num) (M := 141) (by
    push_cast; rw [abs_of_pos (by norm_num)]; norm_num)
  push_cast at n2
  have b : |(1 : ℝ) / 0.007129| ≤ 141 := by rw [abs_of_pos (by norm_num)]; norm_num
  have n3 := n2.rnd hf (e' := 3.3e-14) b (by rw [uuR, wwR]; norm_num)
  exact n3.rnd hf b (by rw [uuR, wwR]; norm_num)

/-- C96: the formulas for the years outside the table, in binary64. -/
theorem deltaTFormula_float (hf : FloatLike fl) {yr mo : ℤ} (hy : |yr| ≤ 10000) (h : 1 ≤ mo ∧ mo ≤ 12)
    (ho : yr ≤ 1620 ∨ 2014 ≤ yr) :
    |deltaTFormula (fun x => x) yr mo| ≤ 602000 ∧
      |deltaTFormula fl yr mo - deltaTFormula (fun x => x) yr mo| ≤ 1e-9 := by
  have ny := midMonth_near hf hy h
  obtain ⟨b1, b2⟩ := midYear_bounds yr h
  have y1 : |(yr : ℝ)| ≤ 10000 := by exact_mod_cast hy
  rw [abs_le] at y1
  have em : midMonth (fun x => x) yr mo = midYear yr mo := rfl
  suffices hN : |((deltaTFormula (fun x => x) yr mo : ℚ) : ℝ)| ≤ 602000 ∧
      Near (deltaTFormula fl yr mo) (deltaTFormula (fun x => x) yr mo : ℚ) 1e-9 by
    refine ⟨by exact_mod_cast hN.1, ?_⟩
    have := hN.2
    unfold Near at this
    rw [← Rat.cast_sub, ← Rat.cast_abs] at this
    have e : ((1e-9 : ℝ)) = ((1e-9 : ℚ) : ℝ) := by norm_num
    rw [e] at this
    exact Rat.cast_le.mp this
  unfold deltaTFormula
  rw [em]
  generalize midMonth fl yr mo = Y at *
  generalize midYear yr mo = y at *
  have hb : |(y : ℝ)| ≤ 10001 := by rw [abs_le]; constructor <;> linarith
  simp only [List.map_id']
  refine deltaTFinal_near hf ny hb ?_
  have tb : ∀ base T lo hi : ℚ, (lo : ℝ) ≤ y → (y : ℝ) ≤ hi → base - lo ≤ 100 * T → hi - base ≤ 100 * T →
      |(y : ℝ) - base| / 100 ≤ T := by
    intro base T lo hi h1 h2 h3 h4
    have h3' : (base : ℝ) - lo ≤ 100 * T := by exact_mod_cast h3
    have h4' : (hi : ℝ) - base ≤ 100 * T := by exact_mod_cast h4
    rw [div_le_iff₀ (by norm_num), abs_le]
    constructor <;> linarith
  have lo : ∀ n : ℤ, n ≤ yr → (((n : ℤ) : ℚ) : ℝ) ≤ y := fun n hn => by
    have : (n : ℝ) ≤ yr := by exact_mod_cast hn
    push_cast; linarith
  have hi : ∀ n : ℤ, yr < n → (y : ℝ) ≤ (((n : ℤ) : ℚ) : ℝ) := fun n hn => by
    have : (yr : ℝ) + 1 ≤ n := by exact_mod_cast hn
    push_cast; linarith
  rw [abs_le] at hy
  by_cases c0 : yr < -500
  · simp only [if_pos c0]
    exact deltaTPoly_near hf ny (base := 1820) (T := 118.3) (et := 4.2e-14)
      (tb _ _ _ _ (lo (-10000) hy.1) (hi _ c0) (by norm_num) (by norm_num)) (by rw [uuR, wwR]; norm_num) [-20, 0, 32]
      (by decide +kernel) (by decide +kernel)
  simp only [if_neg c0]
  by_cases c1 : yr < 500
  · simp only [if_pos c1]
    have hT : |(y : ℝ) / 100| ≤ (5.01 : ℚ) := by
      have := tb 0 5.01 _ _ (lo (-500) (by omega)) (hi _ c1) (by norm_num) (by norm_num)
      rw [abs_div, abs_of_pos (by norm_num : (0 : ℝ) < 100)]
      simpa using this
    have n := (ny.div_const (k := 100) (by norm_num)).rnd hf (M := 5.01) (e' := ((1.5e-14 : ℚ) : ℝ)) (by
      push_cast at hT ⊢; exact hT) (by rw [uuR, wwR]; norm_num)
    push_cast at n
    have := hornerLit_near hf (T := 5.01) (et := 1.5e-14) (TF := fl (Y / 100)) (by push_cast; exact n) hT
      [10583.6, -1014.41, 33.78311, -5.952053, -0.1798452, 0.022174192, 0.0090316521] (M := 600000) (E := 8e-10)
      (by decide +kernel) (by decide +kernel)
    rw [horner_cast]
    push_cast at this ⊢
    exact this
  simp only [if_neg c1]
  by_cases c2 : yr < 1600
  · simp only [if_pos c2]
    exact deltaTPoly_near hf ny (base := 1000) (T := 6) (et := 1.6e-14)
      (tb _ _ _ _ (lo 500 (by omega)) (hi _ c2) (by norm_num) (by norm_num)) (by rw [uuR, wwR]; norm_num)
      [1574.2, -556.01, 71.23472, 0.319781, -0.8503463, -0.005050998, 0.0083572073]
      (by decide +kernel) (by decide +kernel)
  simp only [if_neg c2]
  by_cases c3 : yr < 1700
  · simp only [if_pos c3]
    have n := deltaTArg_near hf ny (base := 1600) (T := 0.21) (et := ((1.5e-14 : ℚ) : ℝ)) (by
      have := tb 1600 0.21 _ _ (lo 1600 (by omega)) (hi 1621 (by omega)) (by norm_num) (by norm_num)
      push_cast at this ⊢; exact this) (by rw [uuR, wwR]; norm_num)
    have hT : |((y : ℝ) - (1600 : ℚ)) / 100| ≤ (0.21 : ℚ) := by
      rw [abs_div, abs_of_pos (by norm_num : (0 : ℝ) < 100)]
      exact tb 1600 0.21 _ _ (lo 1600 (by omega)) (hi 1621 (by omega)) (by norm_num) (by norm_num)
    have nr := deltaTRecip_near hf
    have lit : ∀ q : ℚ, |(q : ℝ)| ≤ ((|q| : ℚ) : ℝ) ∧ Near (fl q) (q : ℝ) ((uu * (|q| + ww) : ℚ) : ℝ) := fun q => by
      refine ⟨by push_cast; rfl, ?_⟩
      have := lit_near hf q
      push_cast; exact this
    have := hornerG_near hf n hT [(fl 120, ((120 : ℚ) : ℝ), |120|, uu * (|120| + ww)),
      (fl (-98.08), ((-98.08 : ℚ) : ℝ), |-98.08|, uu * (|-98.08| + ww)),
      (fl (-153.2), ((-153.2 : ℚ) : ℝ), |-153.2|, uu * (|-153.2| + ww)),
      (fl (recip fl 0.007129), ((1 / 0.007129 : ℚ) : ℝ), 141, 5e-14)] (by
        intro r hr
        simp only [List.mem_cons, List.not_mem_nil, or_false] at hr
        rcases hr with rfl | rfl | rfl | rfl
        · exact lit _
        · exact lit _
        · exact lit _
        · exact ⟨by push_cast; rw [abs_of_pos (by norm_num)]; norm_num, by push_cast; exact nr⟩)
    obtain ⟨t1, t2⟩ := this
    have e : (((y - 1600) / 100 : ℚ) : ℝ) = ((y : ℝ) - (1600 : ℚ)) / 100 := by push_cast; rfl
    rw [horner_cast, e]
    refine ⟨t1.trans ?_, t2.mono ?_⟩
    · have : gM 0.21 [(|120|, uu * (|120| + ww)), (|-98.08|, uu * (|-98.08| + ww)), (|-153.2|, uu * (|-153.2| + ww)),
        ((141 : ℚ), (5e-14 : ℚ))] ≤ 600000 := by decide +kernel
      exact_mod_cast this
    · have : gE 0.21 1.5e-14 [(|120|, uu * (|120| + ww)), (|-98.08|, uu * (|-98.08| + ww)), (|-153.2|, uu * (|-153.2| + ww)),
        ((141 : ℚ), (5e-14 : ℚ))] ≤ 8e-10 := by decide +kernel
      have e8 : (8e-10 : ℝ) = ((8e-10 : ℚ) : ℝ) := by norm_num
      rw [e8]
      exact Rat.cast_le.mpr this
  simp only [if_neg c3]
  have h14 : 2014 ≤ yr := by omega
  rw [if_neg (by omega), if_neg (by omega), if_neg (by omega), if_neg (by omega), if_neg (by omega), if_neg (by omega),
    if_neg (by omega), if_neg (by omega)]
  rw [if_neg (show ¬ yr < 1800 by omega), if_neg (show ¬ yr < 1860 by omega), if_neg (show ¬ yr < 1900 by omega),
    if_neg (show ¬ yr < 1920 by omega), if_neg (show ¬ yr < 1941 by omega), if_neg (show ¬ yr < 1961 by omega),
    if_neg (show ¬ yr < 1986 by omega), if_neg (show ¬ yr < 2005 by omega)]
  by_cases c4 : yr < 2050
  · simp only [if_pos c4]
    exact deltaTPoly_near hf ny (base := 2000) (T := 0.5) (et := 1.5e-14)
      (tb _ _ _ _ (lo 2014 h14) (hi _ c4) (by norm_num) (by norm_num)) (by rw [uuR, wwR]; norm_num)
      [62.92, 32.217, 55.89] (by decide +kernel) (by decide +kernel)
  simp only [if_neg c4]
  by_cases c5 : yr < 2150
  · simp only [if_pos c5]
    have hT := tb 1820 3.3 _ _ (lo 2050 (by omega)) (hi _ c5) (by norm_num) (by norm_num)
    have n := deltaTArg_near hf ny (base := 1820) (T := 3.3) (et := 1.5e-14) (by push_cast at hT ⊢; exact hT)
      (by rw [uuR, wwR]; norm_num)
    have bT : |((y : ℝ) - (1820 : ℚ)) / 100| ≤ 3.3 := by
      rw [abs_div, abs_of_pos (by norm_num : (0 : ℝ) < 100)]; push_cast at hT ⊢; exact hT
    have lo' := lo 2050 (by omega)
    have hi' := hi _ c5
    push_cast at lo' hi'
    generalize fl (fl (Y - 1820) / 100) = A at *
    have n2 := (n.mul n bT bT).rnd hf (M := 11) (e' := 2e-13) (by
      rw [abs_mul]; exact (mul_le_mul bT bT (abs_nonneg _) (by norm_num)).trans (by norm_num)) (by rw [uuR, wwR]; norm_num)
    have b2 : |((y : ℝ) - (1820 : ℚ)) / 100 * (((y : ℝ) - (1820 : ℚ)) / 100)| ≤ 11 := by
      rw [abs_mul]; exact (mul_le_mul bT bT (abs_nonneg _) (by norm_num)).trans (by norm_num)
    have n3 := ((near_self 32).mul n2 (M := 32) (by norm_num) b2).rnd hf (M := 352) (e' := 7e-12) (by
      rw [abs_mul]; exact (mul_le_mul (by norm_num : |((32 : ℚ) : ℝ)| ≤ 32) b2 (abs_nonneg _) (by norm_num)).trans (by norm_num))
      (by rw [uuR, wwR]; norm_num)
    have b3 : |((32 : ℚ) : ℝ) * (((y : ℝ) - (1820 : ℚ)) / 100 * (((y : ℝ) - (1820 : ℚ)) / 100))| ≤ 352 := by
      rw [abs_mul]; exact (mul_le_mul (by norm_num : |((32 : ℚ) : ℝ)| ≤ 32) b2 (abs_nonneg _) (by norm_num)).trans (by norm_num)
    have b4 : |((-20 : ℚ) : ℝ) + ((32 : ℚ) : ℝ) * (((y : ℝ) - (1820 : ℚ)) / 100 * (((y : ℝ) - (1820 : ℚ)) / 100))| ≤ 372 := by
      refine (abs_add_le _ _).trans ?_
      have : |((-20 : ℚ) : ℝ)| = 20 := by push_cast; rw [abs_neg, abs_of_pos (by norm_num)]
      rw [this]; linarith
    have n4 := ((near_self (-20)).add n3).rnd hf (e' := 7.1e-12) b4 (by rw [uuR, wwR]; norm_num)
    have b5 : |((2150 : ℚ) : ℝ) - y| ≤ 100 := by push_cast; rw [abs_le]; constructor <;> linarith
    have n5 := ((near_self 2150).sub ny).rnd hf (e' := 1.5e-12) b5 (by rw [uuR, wwR]; norm_num)
    have bl : |((0.5628 : ℚ) : ℝ)| ≤ 0.5628 := by push_cast; rw [abs_of_pos (by norm_num)]
    have nl : Near (fl 0.5628) ((0.5628 : ℚ) : ℝ) 1e-16 := (near_self 0.5628).rnd hf bl (by rw [uuR, wwR]; norm_num)
    have b6 : |((0.5628 : ℚ) : ℝ) * (((2150 : ℚ) : ℝ) - y)| ≤ 57 := by
      rw [abs_mul]; exact (mul_le_mul bl b5 (abs_nonneg _) (by norm_num)).trans (by norm_num)
    have n6 := (nl.mul n5 bl b5).rnd hf (e' := 1e-12) b6 (by rw [uuR, wwR]; norm_num)
    have b7 := (abs_sub _ _).trans (add_le_add b4 b6)
    have n7 := (n4.sub n6).rnd hf (e' := 8e-10) b7 (by rw [uuR, wwR]; norm_num)
    have e : ((-20 + 32 * ((y - 1820) / 100 * ((y - 1820) / 100)) - 0.5628 * (2150 - y) : ℚ) : ℝ) =
        ((-20 : ℚ) : ℝ) + ((32 : ℚ) : ℝ) * (((y : ℝ) - (1820 : ℚ)) / 100 * (((y : ℝ) - (1820 : ℚ)) / 100)) -
          ((0.5628 : ℚ) : ℝ) * (((2150 : ℚ) : ℝ) - y) := by push_cast; ring
    rw [e]
    exact ⟨b7.trans (by norm_num), n7⟩
  simp only [if_neg c5]
  exact deltaTPoly_near hf ny (base := 1820) (T := 118.3) (et := 4.2e-14)
      (tb _ _ _ _ (lo 2150 (by omega)) (hi 10001 (by omega)) (by norm_num) (by norm_num)) (by rw [uuR, wwR]; norm_num) [-20, 0, 32]
      (by decide +kernel) (by decide +kernel)

/-- The civil year and month of a time are the same in binary64. -/
theorem date_float (h : Rounding fl) (jd : ℚ) (hF : IsF64 jd) (h0 : 32 ≤ jd) (h1 : jd ≤ 2 ^ 39) :
    ∃ y m : ℤ, (1 ≤ m ∧ m ≤ 12) ∧ ((jdToCal1 fl jd true).1 = y ∧ (jdToCal1 fl jd true).2.1 = m) ∧
      (jdToCal1 (fun x => x) jd true).1 = y ∧ (jdToCal1 (fun x => x) jd true).2.1 = m := by
  obtain ⟨y, m, d, f, hv, e, -, -, -, -, -, k⟩ := jdToCal1_parts (.inl h) jd (fun _ => hF) h0 h1
  obtain ⟨y', m', d', f', hv', e', -, -, -, -, -, k'⟩ := jdToCal1_parts (.inr rfl) jd (fun h => h.rep _) h0 h1
  obtain ⟨rfl, rfl, rfl⟩ := jdn_inj hv hv' (e.trans e'.symm)
  by_cases hb : BadDay true y m d
  · rw [if_pos hb] at k k'
    exact ⟨y, 2, by norm_num, by rw [k]; exact ⟨rfl, rfl⟩, by rw [k'], by rw [k']⟩
  · rw [if_neg hb] at k k'
    exact ⟨y, m, ⟨hv.1, hv.2.1⟩, by rw [k]; exact ⟨rfl, rfl⟩, by rw [k'], by rw [k']⟩

/-- Outside the table the formulas are used. -/
theorem deltaT_formula_used {g : ℚ → ℚ} (h : Arith g) (jd : ℚ) (hF : Rounding g → IsF64 jd) (h0 : 32 ≤ jd)
    (h1 : jd ≤ 2 ^ 39) (ho : jd < 2313118.5 ∨ 2456932.25 < jd) :
    deltaTSeconds g jd = deltaTFormula g (jdToCal1 g jd true).1 (jdToCal1 g jd true).2.1 ∧
      ((jdToCal1 g jd true).1 ≤ 1620 ∨ 2014 ≤ (jdToCal1 g jd true).1) := by
  obtain ⟨e1, -⟩ := jd0_ends
  have y1 := jdToCal1_year_ge h jd hF h0 h1 1621
  rw [e1] at y1
  have y2 := jdToCal1_year_ge h jd hF h0 h1 2014
  have e2 : jd0 true 2014 1 1 = 2456658.5 := by
    unfold jd0 jdn epoch
    rw [daysToYear_true, dayOfYear_1]
    norm_num
  rw [e2] at y2
  constructor
  · unfold deltaTSeconds
    simp only []
    split_ifs with hy
    · have hb : 2456932.25 < jd := by
        rcases ho with h | h
        · have := y1.mp (by omega); linarith
        · exact h
      have : bisect (deltaTTable g) (jd, 0) = 1139 := by
        obtain ⟨b1, b2, b3⟩ := bisect_spec (deltaTTable g) (jd, 0) (table_sorted _)
        rw [table_length] at b1
        by_contra hc
        have := b3 1138 _ (by omega) (table_last _)
        rw [rowLt_iff] at this
        simp only at this
        rcases this with h | h <;> linarith
      have hn : pyGet (deltaTTable g) (bisect (deltaTTable g) (jd, 0) : ℕ) = none := by
        rw [this]; unfold pyGet
        rw [if_pos (by omega), List.getElem?_eq_none]
        rw [table_length]; omega
      rw [hn]
    · rfl
  · rcases ho with h | h
    · left
      by_contra hc
      have := y1.mp (by omega)
      linarith
    · right
      exact y2.mpr (by norm_num at h ⊢; linarith)

/-- C96: `deltaT_seconds` in binary64 is within a nanosecond of its exact value, from 4712 BC to AD 9999. -/
theorem deltaT_float_all (h : Rounding fl) (jd : ℚ) (hF : IsF64 jd) (h0 : 32 ≤ jd) (h1 : jd < 5373484.5) :
    |deltaTSeconds (fun x => x) jd| ≤ 602000 ∧ |deltaTSeconds fl jd - deltaTSeconds (fun x => x) jd| ≤ 1e-9 := by
  have h1' : jd ≤ 2 ^ 39 := by norm_num at h1 ⊢; linarith
  by_cases hin : 2313118.5 ≤ jd ∧ jd ≤ 2456932.25
  · obtain ⟨r1, r2⟩ := deltaT_range jd hin.1 hin.2
    refine ⟨?_, (deltaT_float h jd hF hin.1 hin.2).trans (by norm_num)⟩
    rw [abs_le]; constructor <;> linarith
  · have ho : jd < 2313118.5 ∨ 2456932.25 < jd := by
      by_contra hc
      push Not at hc
      exact hin hc
    obtain ⟨u1, u2⟩ := deltaT_formula_used (.inl h) jd (fun _ => hF) h0 h1' ho
    obtain ⟨v1, -⟩ := deltaT_formula_used (.inr rfl) (g := fun x => x) jd (fun h => h.rep _) h0 h1' ho
    have a1 := jdToCal1_year_ge (.inl h) jd (fun _ => hF) h0 h1' 10000
    have a2 := jdToCal1_year_ge (.inl h) jd (fun _ => hF) h0 h1' (-10000)
    obtain ⟨y, m, hm, ⟨f1, f2⟩, g1, g2⟩ := date_float h jd hF h0 h1'
    rw [f1, f2] at u1
    rw [f1] at u2 a1 a2
    rw [g1, g2] at v1
    have e1 : jd0 true 10000 1 1 = 5373484.5 := by
      unfold jd0 jdn epoch
      rw [daysToYear_true, dayOfYear_1]
      norm_num
    have e2 : jd0 true (-10000) 1 1 ≤ 0 := by
      unfold jd0 jdn epoch
      rw [daysToYear_true, dayOfYear_1]
      norm_num
    rw [e1] at a1
    have y1 : y < 10000 := by
      by_contra hc
      have := a1.mp (by omega)
      linarith
    have y2 : -10000 ≤ y := a2.mpr (by linarith)
    rw [u1, v1]
    exact deltaTFormula_float h.floatLike (by rw [abs_le]; constructor <;> omega) hm u2

/-- C96: `dt_to_ut` in binary64 is within `7e-10` days (60 microseconds) of its exact value. -/
theorem dt_to_ut_float_all (h : Rounding fl) (jd : ℚ) (hF : IsF64 jd) (h0 : 32 ≤ jd) (h1 : jd < 5373484.5) :
    |dtToUt fl jd - dtToUt (fun x => x) jd| ≤ 7e-10 := by
  have hl := h.floatLike
  obtain ⟨r, e⟩ := deltaT_float_all h jd hF h0 h1
  unfold dtToUt
  simp only
  generalize deltaTSeconds fl jd = s at *
  generalize deltaTSeconds (fun x => x) jd = t at *
  have e' : Near s t 1e-9 := by
    unfold Near
    have : ((|s - t| : ℚ) : ℝ) ≤ ((1e-9 : ℚ) : ℝ) := Rat.cast_le.mpr e
    push_cast at this ⊢
    exact this
  have r' : |(t : ℝ)| ≤ 602000 := by exact_mod_cast r
  have b : |(t : ℝ) / (86400 : ℚ)| ≤ 7 := by
    push_cast
    rw [abs_div, abs_of_pos (by norm_num : (0 : ℝ) < 86400), div_le_iff₀ (by norm_num)]
    linarith
  have n1 := (e'.div_const (k := 86400) (by norm_num)).rnd hl (e' := 2e-14) b (by rw [uuR, wwR]; norm_num)
  have j0 : (32 : ℝ) ≤ jd := by exact_mod_cast h0
  have j1 : (jd : ℝ) < 5373484.5 := by
    have : (jd : ℝ) < ((5373484.5 : ℚ) : ℝ) := Rat.cast_lt.mpr h1
    push_cast at this; exact this
  have n2 := ((near_self jd).sub n1).rnd hl (M := 5373500) (e' := 7e-10) (by
    rw [abs_le] at b ⊢
    norm_num at j1
    constructor <;> linarith) (by rw [uuR, wwR]; norm_num)
  unfold Near at n2
  have e2 : ((|fl (jd - fl (s / 86400)) - (jd - t / 86400)| : ℚ) : ℝ) ≤ ((7e-10 : ℚ) : ℝ) := by
    push_cast at n2 ⊢
    exact n2
  exact Rat.cast_le.mp e2

/-- Checks a value of the tests in exact arithmetic. -/
def checkDeltaT (r : ℤ × ℤ × ℤ × ℚ) : Bool :=
  match calToJdScalar (fun x => x) r.1 r.2.1 r.2.2.1 with
  | .ok j => decide (32 ≤ j ∧ j < 5373484.5 ∧ r.2.2.2 ≤ deltaTSeconds (fun x => x) j ∧
      deltaTSeconds (fun x => x) j ≤ r.2.2.2 + 0.0994)
  | .error _ => false

theorem checks_exact : ∀ r ∈ deltaTChecks, (Valid true r.1 r.2.1 r.2.2.1 ∧ -1000 ≤ r.1 ∧ r.1 ≤ 3000) ∧
    checkDeltaT r = true := by
  decide +kernel

/-- C96: the values of `tests/test_dynamical.py`, in every arithmetic like binary64. -/
theorem deltaT_checks (h : Rounding fl) : ∀ r ∈ deltaTChecks, ∃ jd,
    calToJdScalar fl r.1 r.2.1 r.2.2.1 = .ok jd ∧ |deltaTSeconds fl jd - r.2.2.2| ≤ 0.1 := by
  intro r hr
  obtain ⟨⟨hv, y0, y1⟩, hc⟩ := checks_exact r hr
  have e1 := calToJdScalar_ok FloatLike.id (by omega) (by omega) hv
  refine ⟨_, calToJdScalar_ok h.floatLike (by omega) (by omega) hv, ?_⟩
  unfold checkDeltaT at hc
  rw [e1] at hc
  simp only [decide_eq_true_eq] at hc
  obtain ⟨j0, j1, a, b⟩ := hc
  have hF : IsF64 (cj r.1 r.2.1 r.2.2.1) := by
    have : ∃ n : ℤ, cj r.1 r.2.1 r.2.2.1 = (n : ℚ) / 2 ^ 1 := by
      unfold cj jd0
      exact ⟨2 * jdn true r.1 r.2.1 r.2.2.1 - 1 + 2 * excess true r.1 r.2.1, by push_cast; ring⟩
    obtain ⟨n, hn⟩ := this
    rw [hn] at j0 j1 ⊢
    refine isF64_dyadic 1 (by norm_num) ?_
    have c0 : (0 : ℚ) ≤ n := by linarith
    have c1 : (n : ℚ) ≤ 2 ^ 53 := by
      norm_num at j1 ⊢
      linarith
    rw [abs_of_nonneg (by exact_mod_cast c0)]
    exact_mod_cast c1
  obtain ⟨-, e⟩ := deltaT_float_all h _ hF j0 j1
  generalize deltaTSeconds fl (cj r.1 r.2.1 r.2.2.1) = s at *
  generalize deltaTSeconds (fun x => x) (cj r.1 r.2.1 r.2.2.1) = t at *
  rw [abs_le] at e ⊢
  norm_num at e a b ⊢
  constructor <;> linarith

/-- There are such arithmetics, times outside the table and tests. -/
example : Rounding rne ∧ IsF64 1502200.5 ∧ (32 : ℚ) ≤ 1502200.5 ∧ (1502200.5 : ℚ) < 5373484.5 :=
  ⟨rounding_rne, ⟨3004401, -1, by norm_num, by norm_num, by norm_num⟩, by norm_num, by norm_num⟩

example : deltaTChecks.length = 41 ∧ (-600, 1, 1, 18635.4) ∈ deltaTChecks := by decide +kernel

end Verif

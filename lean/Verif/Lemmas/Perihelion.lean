import Verif.Lemmas.SunPublished
import Verif.Lemmas.Equinox

/-!
# The distance of the Earth around the aphelion of 1991
-/

namespace Verif
open Real

set_option exponentiation.threshold 500
set_option maxRecDepth 100000

/-- Hours from 1991 July 6 15.46 h, the time in units of `1e-12` millennium since J2000 and the distance in units of
`1e-11` astronomical units. -/
def periTable : List (ℤ × ℤ × ℤ) := [
  (-24, -8492418435, 101670018364), (-23, -8492304358, 101670039114), (-22, -8492190281, 101670059007),
  (-21, -8492076204, 101670078041), (-20, -8491962126, 101670096214), (-19, -8491848049, 101670113522),
  (-18, -8491733972, 101670129965), (-17, -8491619895, 101670145539), (-16, -8491505818, 101670160242),
  (-15, -8491391741, 101670174072), (-14, -8491277664, 101670187027), (-13, -8491163587, 101670199104),
  (-12, -8491049509, 101670210301), (-11, -8490935432, 101670220615), (-10, -8490821355, 101670230045),
  (-9, -8490707278, 101670238588), (-8, -8490593201, 101670246241), (-7, -8490479124, 101670253003),
  (-6, -8490365047, 101670258870), (-5, -8490250970, 101670263840), (-4, -8490136893, 101670267912),
  (-3, -8490022815, 101670271083), (-2, -8489908738, 101670273349), (-1, -8489794661, 101670274710),
  (0, -8489680584, 101670275162), (1, -8489566507, 101670274703), (2, -8489452430, 101670273331),
  (3, -8489338353, 101670271043), (4, -8489224276, 101670267837), (5, -8489110198, 101670263710),
  (6, -8488996121, 101670258661), (7, -8488882044, 101670252686), (8, -8488767967, 101670245784),
  (9, -8488653890, 101670237951), (10, -8488539813, 101670229186), (11, -8488425736, 101670219486),
  (12, -8488311659, 101670208848), (13, -8488197582, 101670197271), (14, -8488083504, 101670184751),
  (15, -8487969427, 101670171287), (16, -8487855350, 101670156875), (17, -8487741273, 101670141515),
  (18, -8487627196, 101670125202), (19, -8487513119, 101670107935), (20, -8487399042, 101670089712),
  (21, -8487284965, 101670070529), (22, -8487170888, 101670050386), (23, -8487056810, 101670029278)]

theorem peri_value : ∀ r ∈ periTable, ptNearN 0 r.2.1 Data.earthR r.2.2 1 = true := by
  have : periTable.all (fun r => ptNearN 0 r.2.1 Data.earthR r.2.2 1) = true := by decide +kernel
  exact List.all_eq_true.1 this

/-- The rows are the 48 hours, their times are rounded correctly and the distances fall off as claimed. -/
def periRowOk (n : ℕ) (r : ℤ × ℤ × ℤ) : Bool :=
  decide (r.1 = (n : ℤ) - 24) && decide (2 * ((100 * r.1 - 7442054) * 10 ^ 7 - 8766 * r.2.1) ≤ 8766) &&
  decide (-8766 ≤ 2 * ((100 * r.1 - 7442054) * 10 ^ 7 - 8766 * r.2.1)) &&
  (decide (r.1 = 0) || decide (64 * 10 ^ 6 * r.1 ^ 2 ≤ 149597 * (101670275162 - r.2.2 - 22)) &&
    decide (149598 * (101670275162 - r.2.2 + 22) ≤ 73 * 10 ^ 6 * r.1 ^ 2))

theorem peri_rows : ∀ n < 48, ∃ r ∈ periTable, periRowOk n r = true ∧ (r.1 = 0 → r.2.2 = 101670275162) := by
  decide +kernel

/-- `i` hours after 1991 July 6 15.46 h. -/
noncomputable def periTime (i : ℤ) : ℝ := 2448443.5 + 15.46 / 24 + i / 24

theorem peri_millennia (i : ℤ) : millennia (periTime i) = (100 * i - 7442054) * 10 ^ 7 / 8766 * 1e-12 := by
  unfold millennia periTime
  ring

/-- The distance of the Earth at a time close to one of the 48 hours. -/
theorem peri_near {n : ℕ} {r : ℤ × ℤ × ℤ} (hr : r ∈ periTable) (ok : periRowOk n r = true) {t : ℝ}
    (ht : |t - periTime r.1| ≤ 2e-9) : |10 ^ 11 * poisson Data.earthR (millennia t) - r.2.2| ≤ 10.5 := by
  have k : leftTot 0 1 Data.earthR ≤ 0 := by decide +kernel
  have m : ptA 1 Data.earthR ≤ 103 * 10 ^ 9 := by decide +kernel
  have h := ptNearN_spec (peri_value r hr) rows_earthR k m
  simp only [periRowOk, Bool.and_eq_true, decide_eq_true_eq] at ok
  obtain ⟨⟨⟨-, o1⟩, o2⟩, -⟩ := ok
  have o1 : (2 : ℝ) * ((100 * r.1 - 7442054) * 10 ^ 7 - 8766 * r.2.1) ≤ 8766 := by exact_mod_cast o1
  have o2 : (-8766 : ℝ) ≤ 2 * ((100 * r.1 - 7442054) * 10 ^ 7 - 8766 * r.2.1) := by exact_mod_cast o2
  have d : |millennia t - r.2.1 * 1e-12| ≤ 0.51e-12 := by
    have e1 : millennia t - r.2.1 * 1e-12 = (t - periTime r.1) / 365250 + (millennia (periTime r.1) - r.2.1 * 1e-12) := by
      unfold millennia; ring
    rw [e1, peri_millennia]
    have e2 : |(t - periTime r.1) / 365250| ≤ 6e-15 := by
      rw [abs_div, abs_of_pos (by norm_num : (0 : ℝ) < 365250), div_le_iff₀ (by norm_num)]
      refine ht.trans ?_
      norm_num
    have e3 : |(100 * (r.1 : ℝ) - 7442054) * 10 ^ 7 / 8766 * 1e-12 - r.2.1 * 1e-12| ≤ 0.5e-12 := by
      generalize (r.1 : ℝ) = x at *
      generalize (r.2.1 : ℝ) = y at *
      clear e1 e2 h
      rw [show (100 * x - 7442054) * 10 ^ 7 / 8766 * 1e-12 - y * 1e-12 = (2 * ((100 * x - 7442054) * 10 ^ 7 - 8766 * y)) / 8766 * 0.5e-12 by ring,
        abs_mul, abs_of_pos (by norm_num : (0 : ℝ) < 0.5e-12)]
      refine mul_le_of_le_one_left (by norm_num) ?_
      rw [abs_div, abs_of_pos (by norm_num : (0 : ℝ) < 8766), div_le_one (by norm_num), abs_le]
      exact ⟨o2, o1⟩
    refine (abs_add_le _ _).trans ((add_le_add e2 e3).trans ?_)
    norm_num
  have b : |(r.2.1 : ℝ) * 1e-12| ≤ 3 := by
    have u := peri_value r hr
    unfold ptNearN at u
    have u := Nat.le_of_ble_eq_true (Bool.and_eq_true_iff.1 u).1
    rw [abs_mul, abs_of_pos (by norm_num : (0 : ℝ) < 1e-12), ← Int.cast_abs, Int.abs_eq_natAbs]
    have : ((r.2.1.natAbs : ℕ) : ℝ) ≤ (3000000000000 : ℕ) := by exact_mod_cast u
    norm_num at this ⊢
    linarith
  have a : |millennia t| ≤ 6 := by
    have := abs_add_le (millennia t - r.2.1 * 1e-12) (r.2.1 * 1e-12)
    rw [sub_add_cancel] at this
    refine this.trans ((add_le_add d b).trans ?_)
    norm_num
  obtain ⟨-, e, -⟩ := earth6 (millennia t) (r.2.1 * 1e-12) a (b.trans (by norm_num))
  have e := e.trans (mul_le_mul_of_nonneg_left d (by norm_num))
  rw [← poisson_eq_pval] at h
  generalize poisson Data.earthR (millennia t) = P at *
  generalize poisson Data.earthR (r.2.1 * 1e-12) = Q at *
  generalize (r.2.2 : ℝ) = c at *
  rw [abs_le] at *
  norm_num at h e ⊢
  constructor <;> linarith [h.1, h.2, e.1, e.2]

end Verif

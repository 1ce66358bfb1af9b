import Verif.Lemmas.EqEvent
import Verif.Lemmas.EqPoints3
import Verif.Lemmas.EqBlock.Winter3
import Verif.Props.EquinoxApprox

/-!
# Events near the results of `equinox_approx`: all years
-/

namespace Verif
open Real

set_option exponentiation.threshold 500

/-- There is an event of the season number `i` within `δ` of the result for the year `y`. -/
def HasEvent (season : String) (i y : ℤ) (δ : ℝ) : Prop :=
  |millennia ((apN season y : ℝ) / 10 ^ 17 + equinoxCorrection ((apN season y : ℝ) / 10 ^ 17))| ≤ 5.9 ∧
  ∃ x, |x - ((apN season y : ℝ) / 10 ^ 17 + equinoxCorrection ((apN season y : ℝ) / 10 ^ 17))| ≤ δ ∧
    sunLambda x = (i + 4 * (y - 1999) - 2 : ℤ) * (π / 2) + π

theorem lin_time {U H : ℤ} {t : ℝ} {j n : ℕ} (hn : 0 < n) (hj : j < n + 1) (h0 : |(U : ℝ) / 10 ^ 11 - t| ≤ 5.13)
    (h1 : |((U : ℝ) + n * H) / 10 ^ 11 - t| ≤ 5.13) : |((U : ℝ) + j * H) / 10 ^ 11 - t| ≤ 5.13 := by
  have hj' : (j : ℝ) ≤ n := by exact_mod_cast Nat.le_of_lt_succ hj
  have n0 : (0 : ℝ) < n := by exact_mod_cast hn
  have e : ((U : ℝ) + j * H) / 10 ^ 11 - t = (1 - j / n) * (U / 10 ^ 11 - t) +
      j / n * ((U + n * H) / 10 ^ 11 - t) := by field_simp; ring
  have j0 : (0 : ℝ) ≤ j / n := by positivity
  have j1 : (j : ℝ) / n ≤ 1 := by rw [div_le_one n0]; exact hj'
  rw [e, abs_le]
  rw [abs_le] at h0 h1
  generalize (j : ℝ) / n = s at *
  constructor <;> nlinarith [h0.1, h0.2, h1.1, h1.2]

theorem eventSpring0 {y : ℤ} (h0 : -1000 ≤ y) (h1 : y ≤ 23) : HasEvent "spring" 0 y 0.001499995 := by
  obtain ⟨j, hj⟩ := Int.eq_ofNat_of_zero_le (show 0 ≤ y - (-1000) by omega)
  have ap : apN "spring" y = 172113929189 * 10 ^ 12 + 36524213740 * 10 ^ 9 * y + 6134 * 10 ^ 6 * y ^ 2 +
      111 * 10 ^ 3 * y ^ 3 + (-71) * y ^ 4 := by
    unfold apN
    rw [if_pos (by omega)]
    simp only [Data.approx1000, List.lookup, beq_self_eq_true]
  have ey : y = -1000 + j := by omega
  have k := block_event (δ := 0.001499995) blkSpring0 (by norm_num)
    (fun j hj => lin0_ok (lin_time (n := 1023) (by norm_num) hj (by rw [abs_le]; norm_num) (by rw [abs_le]; norm_num)))
    ptsSpring0 (Or.inr le_rfl) (by norm_num) (by norm_num) (j := j) (by omega) (by rw [abs_le]; omega)
    (jd := (apN "spring" y : ℝ) / 10 ^ 17) (by rw [ap, ey]; push_cast; ring)
  refine ⟨k.1, ?_⟩
  obtain ⟨x, x1, x2⟩ := k.2
  exact ⟨x, x1, by rw [x2, ey]; push_cast; ring⟩

theorem eventSpring1 {y : ℤ} (h0 : 24 ≤ y) (h1 : y ≤ 1000) : HasEvent "spring" 0 y 0.001499995 := by
  obtain ⟨j, hj⟩ := Int.eq_ofNat_of_zero_le (show 0 ≤ y - 24 by omega)
  have ap : apN "spring" y = 172113929189 * 10 ^ 12 + 36524213740 * 10 ^ 9 * y + 6134 * 10 ^ 6 * y ^ 2 +
      111 * 10 ^ 3 * y ^ 3 + (-71) * y ^ 4 := by
    unfold apN
    rw [if_pos (by omega)]
    simp only [Data.approx1000, List.lookup, beq_self_eq_true]
  have ey : y = 24 + j := by omega
  have k := block_event (δ := 0.001499995) blkSpring1 (by norm_num)
    (fun j hj => lin1_ok (lin_time (n := 976) (by norm_num) hj (by rw [abs_le]; norm_num) (by rw [abs_le]; norm_num)))
    ptsSpring1 (Or.inr le_rfl) (by norm_num) (by norm_num) (j := j) (by omega) (by rw [abs_le]; omega)
    (jd := (apN "spring" y : ℝ) / 10 ^ 17) (by rw [ap, ey]; push_cast; ring)
  refine ⟨k.1, ?_⟩
  obtain ⟨x, x1, x2⟩ := k.2
  exact ⟨x, x1, by rw [x2, ey]; push_cast; ring⟩

theorem eventSpring2 {y : ℤ} (h0 : 1001 ≤ y) (h1 : y ≤ 2024) : HasEvent "spring" 0 y 0.001249995 := by
  obtain ⟨j, hj⟩ := Int.eq_ofNat_of_zero_le (show 0 ≤ y - 1001 by omega)
  have ap : apN "spring" y = 245162380984 * 10 ^ 12 + 36524237404 * 10 ^ 9 * (y - 2000) + 5169 * 10 ^ 6 * (y - 2000) ^ 2 +
      (-411) * 10 ^ 3 * (y - 2000) ^ 3 + (-57) * (y - 2000) ^ 4 := by
    unfold apN
    rw [if_neg (by omega)]
    simp only [Data.approx3000, List.lookup, beq_self_eq_true]
  have ey : y = 1001 + j := by omega
  have k := block_event (δ := 0.001249995) blkSpring2 (by norm_num)
    (fun j hj => lin2_ok (lin_time (n := 1023) (by norm_num) hj (by rw [abs_le]; norm_num) (by rw [abs_le]; norm_num)))
    (by simp) (Or.inl rfl) (by norm_num) (by norm_num) (j := j) (by omega) (by rw [abs_le]; omega)
    (jd := (apN "spring" y : ℝ) / 10 ^ 17) (by rw [ap, ey]; push_cast; ring)
  refine ⟨k.1, ?_⟩
  obtain ⟨x, x1, x2⟩ := k.2
  exact ⟨x, x1, by rw [x2, ey]; push_cast; ring⟩

theorem eventSpring3 {y : ℤ} (h0 : 2025 ≤ y) (h1 : y ≤ 3000) : HasEvent "spring" 0 y 0.001249995 := by
  obtain ⟨j, hj⟩ := Int.eq_ofNat_of_zero_le (show 0 ≤ y - 2025 by omega)
  have ap : apN "spring" y = 245162380984 * 10 ^ 12 + 36524237404 * 10 ^ 9 * (y - 2000) + 5169 * 10 ^ 6 * (y - 2000) ^ 2 +
      (-411) * 10 ^ 3 * (y - 2000) ^ 3 + (-57) * (y - 2000) ^ 4 := by
    unfold apN
    rw [if_neg (by omega)]
    simp only [Data.approx3000, List.lookup, beq_self_eq_true]
  have ey : y = 2025 + j := by omega
  have k := block_event (δ := 0.001249995) blkSpring3 (by norm_num)
    (fun j hj => lin3_ok (lin_time (n := 975) (by norm_num) hj (by rw [abs_le]; norm_num) (by rw [abs_le]; norm_num)))
    (by simp) (Or.inl rfl) (by norm_num) (by norm_num) (j := j) (by omega) (by rw [abs_le]; omega)
    (jd := (apN "spring" y : ℝ) / 10 ^ 17) (by rw [ap, ey]; push_cast; ring)
  refine ⟨k.1, ?_⟩
  obtain ⟨x, x1, x2⟩ := k.2
  exact ⟨x, x1, by rw [x2, ey]; push_cast; ring⟩

theorem eventSpring {y : ℤ} (h : -1000 ≤ y ∧ y ≤ 3000) :
    HasEvent "spring" 0 y (if y ≤ 1000 then 0.001499995 else 0.001249995) := by
  by_cases c : y ≤ 1000
  · rw [if_pos c]
    by_cases c' : y ≤ 23
    · exact eventSpring0 h.1 c'
    · exact eventSpring1 (by omega) c
  · rw [if_neg c]
    by_cases c' : y ≤ 2024
    · exact eventSpring2 (by omega) c'
    · exact eventSpring3 (by omega) h.2

theorem eventSummer0 {y : ℤ} (h0 : -1000 ≤ y) (h1 : y ≤ 23) : HasEvent "summer" 1 y 0.001499995 := by
  obtain ⟨j, hj⟩ := Int.eq_ofNat_of_zero_le (show 0 ≤ y - (-1000) by omega)
  have ap : apN "summer" y = 172123325401 * 10 ^ 12 + 36524172562 * 10 ^ 9 * y + (-5323) * 10 ^ 6 * y ^ 2 +
      907 * 10 ^ 3 * y ^ 3 + (-25) * y ^ 4 := by
    unfold apN
    rw [if_pos (by omega)]
    simp only [Data.approx1000, List.lookup, beq_self_eq_true, show ("summer" == "spring") = false by decide]
  have ey : y = -1000 + j := by omega
  have k := block_event (δ := 0.001499995) blkSummer0 (by norm_num)
    (fun j hj => lin0_ok (lin_time (n := 1023) (by norm_num) hj (by rw [abs_le]; norm_num) (by rw [abs_le]; norm_num)))
    ptsSummer0 (Or.inr le_rfl) (by norm_num) (by norm_num) (j := j) (by omega) (by rw [abs_le]; omega)
    (jd := (apN "summer" y : ℝ) / 10 ^ 17) (by rw [ap, ey]; push_cast; ring)
  refine ⟨k.1, ?_⟩
  obtain ⟨x, x1, x2⟩ := k.2
  exact ⟨x, x1, by rw [x2, ey]; push_cast; ring⟩

theorem eventSummer1 {y : ℤ} (h0 : 24 ≤ y) (h1 : y ≤ 1000) : HasEvent "summer" 1 y 0.001499995 := by
  obtain ⟨j, hj⟩ := Int.eq_ofNat_of_zero_le (show 0 ≤ y - 24 by omega)
  have ap : apN "summer" y = 172123325401 * 10 ^ 12 + 36524172562 * 10 ^ 9 * y + (-5323) * 10 ^ 6 * y ^ 2 +
      907 * 10 ^ 3 * y ^ 3 + (-25) * y ^ 4 := by
    unfold apN
    rw [if_pos (by omega)]
    simp only [Data.approx1000, List.lookup, beq_self_eq_true, show ("summer" == "spring") = false by decide]
  have ey : y = 24 + j := by omega
  have k := block_event (δ := 0.001499995) blkSummer1 (by norm_num)
    (fun j hj => lin1_ok (lin_time (n := 976) (by norm_num) hj (by rw [abs_le]; norm_num) (by rw [abs_le]; norm_num)))
    ptsSummer1 (Or.inr le_rfl) (by norm_num) (by norm_num) (j := j) (by omega) (by rw [abs_le]; omega)
    (jd := (apN "summer" y : ℝ) / 10 ^ 17) (by rw [ap, ey]; push_cast; ring)
  refine ⟨k.1, ?_⟩
  obtain ⟨x, x1, x2⟩ := k.2
  exact ⟨x, x1, by rw [x2, ey]; push_cast; ring⟩

theorem eventSummer2 {y : ℤ} (h0 : 1001 ≤ y) (h1 : y ≤ 2024) : HasEvent "summer" 1 y 0.001249995 := by
  obtain ⟨j, hj⟩ := Int.eq_ofNat_of_zero_le (show 0 ≤ y - 1001 by omega)
  have ap : apN "summer" y = 245171656767 * 10 ^ 12 + 36524162603 * 10 ^ 9 * (y - 2000) + 325 * 10 ^ 6 * (y - 2000) ^ 2 +
      888 * 10 ^ 3 * (y - 2000) ^ 3 + (-30) * (y - 2000) ^ 4 := by
    unfold apN
    rw [if_neg (by omega)]
    simp only [Data.approx3000, List.lookup, beq_self_eq_true, show ("summer" == "spring") = false by decide]
  have ey : y = 1001 + j := by omega
  have k := block_event (δ := 0.001249995) blkSummer2 (by norm_num)
    (fun j hj => lin2_ok (lin_time (n := 1023) (by norm_num) hj (by rw [abs_le]; norm_num) (by rw [abs_le]; norm_num)))
    (by simp) (Or.inl rfl) (by norm_num) (by norm_num) (j := j) (by omega) (by rw [abs_le]; omega)
    (jd := (apN "summer" y : ℝ) / 10 ^ 17) (by rw [ap, ey]; push_cast; ring)
  refine ⟨k.1, ?_⟩
  obtain ⟨x, x1, x2⟩ := k.2
  exact ⟨x, x1, by rw [x2, ey]; push_cast; ring⟩

theorem eventSummer3 {y : ℤ} (h0 : 2025 ≤ y) (h1 : y ≤ 3000) : HasEvent "summer" 1 y 0.001249995 := by
  obtain ⟨j, hj⟩ := Int.eq_ofNat_of_zero_le (show 0 ≤ y - 2025 by omega)
  have ap : apN "summer" y = 245171656767 * 10 ^ 12 + 36524162603 * 10 ^ 9 * (y - 2000) + 325 * 10 ^ 6 * (y - 2000) ^ 2 +
      888 * 10 ^ 3 * (y - 2000) ^ 3 + (-30) * (y - 2000) ^ 4 := by
    unfold apN
    rw [if_neg (by omega)]
    simp only [Data.approx3000, List.lookup, beq_self_eq_true, show ("summer" == "spring") = false by decide]
  have ey : y = 2025 + j := by omega
  have k := block_event (δ := 0.001249995) blkSummer3 (by norm_num)
    (fun j hj => lin3_ok (lin_time (n := 975) (by norm_num) hj (by rw [abs_le]; norm_num) (by rw [abs_le]; norm_num)))
    (by simp) (Or.inl rfl) (by norm_num) (by norm_num) (j := j) (by omega) (by rw [abs_le]; omega)
    (jd := (apN "summer" y : ℝ) / 10 ^ 17) (by rw [ap, ey]; push_cast; ring)
  refine ⟨k.1, ?_⟩
  obtain ⟨x, x1, x2⟩ := k.2
  exact ⟨x, x1, by rw [x2, ey]; push_cast; ring⟩

theorem eventSummer {y : ℤ} (h : -1000 ≤ y ∧ y ≤ 3000) :
    HasEvent "summer" 1 y (if y ≤ 1000 then 0.001499995 else 0.001249995) := by
  by_cases c : y ≤ 1000
  · rw [if_pos c]
    by_cases c' : y ≤ 23
    · exact eventSummer0 h.1 c'
    · exact eventSummer1 (by omega) c
  · rw [if_neg c]
    by_cases c' : y ≤ 2024
    · exact eventSummer2 (by omega) c'
    · exact eventSummer3 (by omega) h.2

theorem eventAutumn0 {y : ℤ} (h0 : -1000 ≤ y) (h1 : y ≤ 23) : HasEvent "autumn" 2 y 0.001499995 := by
  obtain ⟨j, hj⟩ := Int.eq_ofNat_of_zero_le (show 0 ≤ y - (-1000) by omega)
  have ap : apN "autumn" y = 172132570455 * 10 ^ 12 + 36524249558 * 10 ^ 9 * y + (-11677) * 10 ^ 6 * y ^ 2 +
      (-297) * 10 ^ 3 * y ^ 3 + 74 * y ^ 4 := by
    unfold apN
    rw [if_pos (by omega)]
    simp only [Data.approx1000, List.lookup, beq_self_eq_true, show ("autumn" == "spring") = false by decide, show ("autumn" == "summer") = false by decide]
  have ey : y = -1000 + j := by omega
  have k := block_event (δ := 0.001499995) blkAutumn0 (by norm_num)
    (fun j hj => lin0_ok (lin_time (n := 1023) (by norm_num) hj (by rw [abs_le]; norm_num) (by rw [abs_le]; norm_num)))
    ptsAutumn0 (Or.inr le_rfl) (by norm_num) (by norm_num) (j := j) (by omega) (by rw [abs_le]; omega)
    (jd := (apN "autumn" y : ℝ) / 10 ^ 17) (by rw [ap, ey]; push_cast; ring)
  refine ⟨k.1, ?_⟩
  obtain ⟨x, x1, x2⟩ := k.2
  exact ⟨x, x1, by rw [x2, ey]; push_cast; ring⟩

theorem eventAutumn1 {y : ℤ} (h0 : 24 ≤ y) (h1 : y ≤ 1000) : HasEvent "autumn" 2 y 0.001499995 := by
  obtain ⟨j, hj⟩ := Int.eq_ofNat_of_zero_le (show 0 ≤ y - 24 by omega)
  have ap : apN "autumn" y = 172132570455 * 10 ^ 12 + 36524249558 * 10 ^ 9 * y + (-11677) * 10 ^ 6 * y ^ 2 +
      (-297) * 10 ^ 3 * y ^ 3 + 74 * y ^ 4 := by
    unfold apN
    rw [if_pos (by omega)]
    simp only [Data.approx1000, List.lookup, beq_self_eq_true, show ("autumn" == "spring") = false by decide, show ("autumn" == "summer") = false by decide]
  have ey : y = 24 + j := by omega
  have k := block_event (δ := 0.001499995) blkAutumn1 (by norm_num)
    (fun j hj => lin1_ok (lin_time (n := 976) (by norm_num) hj (by rw [abs_le]; norm_num) (by rw [abs_le]; norm_num)))
    ptsAutumn1 (Or.inr le_rfl) (by norm_num) (by norm_num) (j := j) (by omega) (by rw [abs_le]; omega)
    (jd := (apN "autumn" y : ℝ) / 10 ^ 17) (by rw [ap, ey]; push_cast; ring)
  refine ⟨k.1, ?_⟩
  obtain ⟨x, x1, x2⟩ := k.2
  exact ⟨x, x1, by rw [x2, ey]; push_cast; ring⟩

theorem eventAutumn2 {y : ℤ} (h0 : 1001 ≤ y) (h1 : y ≤ 2024) : HasEvent "autumn" 2 y 0.001249995 := by
  obtain ⟨j, hj⟩ := Int.eq_ofNat_of_zero_le (show 0 ≤ y - 1001 by omega)
  have ap : apN "autumn" y = 245181021715 * 10 ^ 12 + 36524201767 * 10 ^ 9 * (y - 2000) + (-11575) * 10 ^ 6 * (y - 2000) ^ 2 +
      337 * 10 ^ 3 * (y - 2000) ^ 3 + 78 * (y - 2000) ^ 4 := by
    unfold apN
    rw [if_neg (by omega)]
    simp only [Data.approx3000, List.lookup, beq_self_eq_true, show ("autumn" == "spring") = false by decide, show ("autumn" == "summer") = false by decide]
  have ey : y = 1001 + j := by omega
  have k := block_event (δ := 0.001249995) blkAutumn2 (by norm_num)
    (fun j hj => lin2_ok (lin_time (n := 1023) (by norm_num) hj (by rw [abs_le]; norm_num) (by rw [abs_le]; norm_num)))
    (by simp) (Or.inl rfl) (by norm_num) (by norm_num) (j := j) (by omega) (by rw [abs_le]; omega)
    (jd := (apN "autumn" y : ℝ) / 10 ^ 17) (by rw [ap, ey]; push_cast; ring)
  refine ⟨k.1, ?_⟩
  obtain ⟨x, x1, x2⟩ := k.2
  exact ⟨x, x1, by rw [x2, ey]; push_cast; ring⟩

theorem eventAutumn3 {y : ℤ} (h0 : 2025 ≤ y) (h1 : y ≤ 3000) : HasEvent "autumn" 2 y 0.001249995 := by
  obtain ⟨j, hj⟩ := Int.eq_ofNat_of_zero_le (show 0 ≤ y - 2025 by omega)
  have ap : apN "autumn" y = 245181021715 * 10 ^ 12 + 36524201767 * 10 ^ 9 * (y - 2000) + (-11575) * 10 ^ 6 * (y - 2000) ^ 2 +
      337 * 10 ^ 3 * (y - 2000) ^ 3 + 78 * (y - 2000) ^ 4 := by
    unfold apN
    rw [if_neg (by omega)]
    simp only [Data.approx3000, List.lookup, beq_self_eq_true, show ("autumn" == "spring") = false by decide, show ("autumn" == "summer") = false by decide]
  have ey : y = 2025 + j := by omega
  have k := block_event (δ := 0.001249995) blkAutumn3 (by norm_num)
    (fun j hj => lin3_ok (lin_time (n := 975) (by norm_num) hj (by rw [abs_le]; norm_num) (by rw [abs_le]; norm_num)))
    (by simp) (Or.inl rfl) (by norm_num) (by norm_num) (j := j) (by omega) (by rw [abs_le]; omega)
    (jd := (apN "autumn" y : ℝ) / 10 ^ 17) (by rw [ap, ey]; push_cast; ring)
  refine ⟨k.1, ?_⟩
  obtain ⟨x, x1, x2⟩ := k.2
  exact ⟨x, x1, by rw [x2, ey]; push_cast; ring⟩

theorem eventAutumn {y : ℤ} (h : -1000 ≤ y ∧ y ≤ 3000) :
    HasEvent "autumn" 2 y (if y ≤ 1000 then 0.001499995 else 0.001249995) := by
  by_cases c : y ≤ 1000
  · rw [if_pos c]
    by_cases c' : y ≤ 23
    · exact eventAutumn0 h.1 c'
    · exact eventAutumn1 (by omega) c
  · rw [if_neg c]
    by_cases c' : y ≤ 2024
    · exact eventAutumn2 (by omega) c'
    · exact eventAutumn3 (by omega) h.2

theorem eventWinter0 {y : ℤ} (h0 : -1000 ≤ y) (h1 : y ≤ 23) : HasEvent "winter" 3 y 0.001499995 := by
  obtain ⟨j, hj⟩ := Int.eq_ofNat_of_zero_le (show 0 ≤ y - (-1000) by omega)
  have ap : apN "winter" y = 172141439987 * 10 ^ 12 + 36524288257 * 10 ^ 9 * y + (-769) * 10 ^ 6 * y ^ 2 +
      (-933) * 10 ^ 3 * y ^ 3 + (-6) * y ^ 4 := by
    unfold apN
    rw [if_pos (by omega)]
    simp only [Data.approx1000, List.lookup, beq_self_eq_true, show ("winter" == "spring") = false by decide, show ("winter" == "summer") = false by decide, show ("winter" == "autumn") = false by decide]
  have ey : y = -1000 + j := by omega
  have k := block_event (δ := 0.001499995) blkWinter0 (by norm_num)
    (fun j hj => lin0_ok (lin_time (n := 1023) (by norm_num) hj (by rw [abs_le]; norm_num) (by rw [abs_le]; norm_num)))
    ptsWinter0 (Or.inr le_rfl) (by norm_num) (by norm_num) (j := j) (by omega) (by rw [abs_le]; omega)
    (jd := (apN "winter" y : ℝ) / 10 ^ 17) (by rw [ap, ey]; push_cast; ring)
  refine ⟨k.1, ?_⟩
  obtain ⟨x, x1, x2⟩ := k.2
  exact ⟨x, x1, by rw [x2, ey]; push_cast; ring⟩

theorem eventWinter1 {y : ℤ} (h0 : 24 ≤ y) (h1 : y ≤ 1000) : HasEvent "winter" 3 y 0.001499995 := by
  obtain ⟨j, hj⟩ := Int.eq_ofNat_of_zero_le (show 0 ≤ y - 24 by omega)
  have ap : apN "winter" y = 172141439987 * 10 ^ 12 + 36524288257 * 10 ^ 9 * y + (-769) * 10 ^ 6 * y ^ 2 +
      (-933) * 10 ^ 3 * y ^ 3 + (-6) * y ^ 4 := by
    unfold apN
    rw [if_pos (by omega)]
    simp only [Data.approx1000, List.lookup, beq_self_eq_true, show ("winter" == "spring") = false by decide, show ("winter" == "summer") = false by decide, show ("winter" == "autumn") = false by decide]
  have ey : y = 24 + j := by omega
  have k := block_event (δ := 0.001499995) blkWinter1 (by norm_num)
    (fun j hj => lin1_ok (lin_time (n := 976) (by norm_num) hj (by rw [abs_le]; norm_num) (by rw [abs_le]; norm_num)))
    ptsWinter1 (Or.inr le_rfl) (by norm_num) (by norm_num) (j := j) (by omega) (by rw [abs_le]; omega)
    (jd := (apN "winter" y : ℝ) / 10 ^ 17) (by rw [ap, ey]; push_cast; ring)
  refine ⟨k.1, ?_⟩
  obtain ⟨x, x1, x2⟩ := k.2
  exact ⟨x, x1, by rw [x2, ey]; push_cast; ring⟩

theorem eventWinter2 {y : ℤ} (h0 : 1001 ≤ y) (h1 : y ≤ 2024) : HasEvent "winter" 3 y 0.001249995 := by
  obtain ⟨j, hj⟩ := Int.eq_ofNat_of_zero_le (show 0 ≤ y - 1001 by omega)
  have ap : apN "winter" y = 245190005952 * 10 ^ 12 + 36524274049 * 10 ^ 9 * (y - 2000) + (-6223) * 10 ^ 6 * (y - 2000) ^ 2 +
      (-823) * 10 ^ 3 * (y - 2000) ^ 3 + 32 * (y - 2000) ^ 4 := by
    unfold apN
    rw [if_neg (by omega)]
    simp only [Data.approx3000, List.lookup, beq_self_eq_true, show ("winter" == "spring") = false by decide, show ("winter" == "summer") = false by decide, show ("winter" == "autumn") = false by decide]
  have ey : y = 1001 + j := by omega
  have k := block_event (δ := 0.001249995) blkWinter2 (by norm_num)
    (fun j hj => lin2_ok (lin_time (n := 1023) (by norm_num) hj (by rw [abs_le]; norm_num) (by rw [abs_le]; norm_num)))
    (by simp) (Or.inl rfl) (by norm_num) (by norm_num) (j := j) (by omega) (by rw [abs_le]; omega)
    (jd := (apN "winter" y : ℝ) / 10 ^ 17) (by rw [ap, ey]; push_cast; ring)
  refine ⟨k.1, ?_⟩
  obtain ⟨x, x1, x2⟩ := k.2
  exact ⟨x, x1, by rw [x2, ey]; push_cast; ring⟩

theorem eventWinter3 {y : ℤ} (h0 : 2025 ≤ y) (h1 : y ≤ 3000) : HasEvent "winter" 3 y 0.001249995 := by
  obtain ⟨j, hj⟩ := Int.eq_ofNat_of_zero_le (show 0 ≤ y - 2025 by omega)
  have ap : apN "winter" y = 245190005952 * 10 ^ 12 + 36524274049 * 10 ^ 9 * (y - 2000) + (-6223) * 10 ^ 6 * (y - 2000) ^ 2 +
      (-823) * 10 ^ 3 * (y - 2000) ^ 3 + 32 * (y - 2000) ^ 4 := by
    unfold apN
    rw [if_neg (by omega)]
    simp only [Data.approx3000, List.lookup, beq_self_eq_true, show ("winter" == "spring") = false by decide, show ("winter" == "summer") = false by decide, show ("winter" == "autumn") = false by decide]
  have ey : y = 2025 + j := by omega
  have k := block_event (δ := 0.001249995) blkWinter3 (by norm_num)
    (fun j hj => lin3_ok (lin_time (n := 975) (by norm_num) hj (by rw [abs_le]; norm_num) (by rw [abs_le]; norm_num)))
    (by simp) (Or.inl rfl) (by norm_num) (by norm_num) (j := j) (by omega) (by rw [abs_le]; omega)
    (jd := (apN "winter" y : ℝ) / 10 ^ 17) (by rw [ap, ey]; push_cast; ring)
  refine ⟨k.1, ?_⟩
  obtain ⟨x, x1, x2⟩ := k.2
  exact ⟨x, x1, by rw [x2, ey]; push_cast; ring⟩

theorem eventWinter {y : ℤ} (h : -1000 ≤ y ∧ y ≤ 3000) :
    HasEvent "winter" 3 y (if y ≤ 1000 then 0.001499995 else 0.001249995) := by
  by_cases c : y ≤ 1000
  · rw [if_pos c]
    by_cases c' : y ≤ 23
    · exact eventWinter0 h.1 c'
    · exact eventWinter1 (by omega) c
  · rw [if_neg c]
    by_cases c' : y ≤ 2024
    · exact eventWinter2 (by omega) c'
    · exact eventWinter3 (by omega) h.2

end Verif

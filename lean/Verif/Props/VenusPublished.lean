import Verif.Lemmas.VenusPlace

/-!
# C97: the published place of Venus

Meeus, Astronomical Algorithms, second edition, examples 32.a and 33.a (`tests/test_vsop.py`): Venus on 1992 December 20, 0h.
-/

namespace Verif
open Real

/-- C97: example 32.a, the heliocentric place of Venus on 1992 December 20, 0h: longitude 26.11428°, latitude -2.62070°, distance
0.724603 au. The values of the book come from an abridged theory; the complete one differs by half a second of arc. -/
theorem venus_heliocentric_1992 : ∃ L B R, vsopDimension3 vsopDict [2448976.5] "Venus" = .ok (.scalar L, .scalar B, .scalar R) ∧
    |L - deg 26.11428| ≤ arcsec 0.58 ∧ |B - deg (-2.62070)| ≤ arcsec 0.35 ∧ |R - 0.724603| ≤ 1.33e-6 := by
  obtain ⟨kL, kB, kR⟩ := venusTables_ok
  refine ⟨_, _, _, vsop_dimension3_value _ "Venus" _ _ _ kL kB kR, ?_⟩
  obtain ⟨hL, hB, hR⟩ := venus_place
  have p1 := pi_gt_d20
  have p2 := pi_lt_d20
  change |modpi2 (poisson Data.venusL (millennia 2448976.5)) - _| ≤ _ ∧ |poisson Data.venusB (millennia 2448976.5) - _| ≤ _ ∧
    |poisson Data.venusR (millennia 2448976.5) - _| ≤ _
  generalize poisson Data.venusL (millennia 2448976.5) = l at *
  generalize poisson Data.venusB (millennia 2448976.5) = b at *
  generalize poisson Data.venusR (millennia 2448976.5) = r at *
  have hm := modpi2_near hL (by unfold deg; norm_num at p1 ⊢; linarith) (by unfold deg; norm_num at p1 p2 ⊢; linarith)
  clear hL
  generalize modpi2 l = g at *
  unfold deg arcsec at *
  simp only [abs_le] at *
  norm_num at *
  refine ⟨⟨?_, ?_⟩, ⟨?_, ?_⟩, ⟨?_, ?_⟩⟩ <;> linarith [hm.1, hm.2, hB.1, hB.2, hR.1, hR.2]

/-- C97: example 33.a, the apparent place of Venus on 1992 December 20, 0h: right ascension 21h 4m 41.454s, declination
-18° 53' 16.84", with the nutation in longitude 16.749" and the obliquity 23.439669° of the example. -/
theorem venus_1992 : ∃ ra dec, geocentricPlanet 2448976.5 "Venus" (arcsec 16.749) (deg 23.439669) (1 / 86400) = .ok (ra, dec) ∧
    ((direction ra dec).sub (direction (deg (15 * (21 + 4 / 60 + 41.454 / 3600))) (deg (-(18 + 53 / 60 + 16.84 / 3600))))).norm ≤
      arcsec 0.005 := by
  obtain ⟨l, b, e, hl, hb⟩ := venus_loop
  have p1 := pi_gt_d20
  have p2 := pi_lt_d20
  have eJ : jcent 2448976.5 = -5137 / 73050 := jcent_of (by norm_num)
  set L1 := polyR [l, fk0, fk1] (-5137 / 73050) with hL1
  have hK : L1 = l + deg (1.397 * (5137 / 73050) - 0.00031 * (5137 / 73050) ^ 2) := by
    rw [hL1]
    unfold fk0 fk1 deg dToR
    simp [polyR, horner]
    ring
  have hx : |L1 / (π / 180) * 10 ^ 12 - ((-46825045535129 : ℤ) : ℝ)| ≤ 1000000 := by
    have p := pi_pos
    have e : L1 / (π / 180) * 10 ^ 12 - ((-46825045535129 : ℤ) : ℝ) = (l - dToR (((-46923283413497 : ℤ) : ℝ) / 10 ^ 12)) / (π / 180) * 10 ^ 12 +
        (((-46923283413497 : ℤ) : ℝ) + 46825045535129 + (1.397 * (5137 / 73050) - 0.00031 * (5137 / 73050) ^ 2) * 10 ^ 12) := by
      rw [hK]
      unfold dToR deg
      field_simp
      push_cast
      ring
    have z : |(l - dToR (((-46923283413497 : ℤ) : ℝ) / 10 ^ 12)) / (π / 180)| ≤ 5e-7 := by
      rw [abs_div, abs_of_pos (by positivity : 0 < π / 180), div_le_iff₀ (by positivity)]
      norm_num at hl p1 ⊢
      linarith
    rw [e]
    generalize (l - dToR (((-46923283413497 : ℤ) : ℝ) / 10 ^ 12)) / (π / 180) = y at *
    clear hl hb e p1 p2 eJ hK
    rw [abs_le] at *
    push_cast at *
    norm_num at *
    constructor <;> linarith
  have hc := cosDeg_near hx vX_cos
  have hs := sinDeg_near hx vX_sin
  rw [show deg (L1 / (π / 180)) = L1 by unfold deg; field_simp] at hc hs
  have tb : |tan b| ≤ 0.041 := by
    have bb : |b| ≤ 0.037 := by
      unfold dToR at hb
      rw [abs_le] at *
      push_cast at *
      norm_num at *
      constructor <;> linarith [hb.1, hb.2]
    have := tan_lip (b := b) (c := 0) (by norm_num at bb ⊢; linarith) (by norm_num)
    rw [tan_zero, sub_zero, sub_zero] at this
    norm_num at this bb ⊢
    linarith
  -- the correction to the FK5
  have fL : |fk2 + fk3 * (cos L1 + sin L1) * tan b - arcsec (-0.09026579)| ≤ 8e-10 := by
    have : |fk3 * (cos L1 + sin L1) * tan b| ≤ 4e-10 := by
      rw [abs_mul, abs_mul, abs_of_pos fk3_bound.1]
      have : |cos L1 + sin L1| ≤ 0.0452 := by
        generalize cos L1 = c at *
        generalize sin L1 = s at *
        rw [abs_le] at *
        push_cast at *
        norm_num at *
        constructor <;> linarith [hc.1, hc.2, hs.1, hs.2]
      exact (mul_le_mul (mul_le_mul fk3_bound.2 this (abs_nonneg _) (by norm_num)) tb (abs_nonneg _) (by norm_num)).trans (by norm_num)
    rw [fk2_eq]
    generalize fk3 * (cos L1 + sin L1) * tan b = z at *
    unfold arcsec
    rw [abs_le] at *
    norm_num at *
    constructor <;> linarith [this.1, this.2]
  have fB : |fk3 * (cos L1 - sin L1) - arcsec 0.0553525104| ≤ 1e-12 := by
    rw [fk3_eq]
    have h : |cos L1 - sin L1 - 1.413496180455| ≤ 1e-7 := by
      generalize cos L1 = c at *
      generalize sin L1 = s at *
      rw [abs_le] at *
      push_cast at *
      norm_num at *
      constructor <;> linarith [hc.1, hc.2, hs.1, hs.2]
    generalize cos L1 - sin L1 = y at *
    rw [show arcsec 0.03916 * y - arcsec 0.0553525104 = arcsec 0.03916 * (y - 1.413496180455) +
      arcsec (0.03916 * 1.413496180455 - 0.0553525104) by unfold arcsec; ring]
    have a0 : |arcsec 0.03916| ≤ 2e-7 := by rw [← fk3_eq, abs_of_pos fk3_bound.1]; exact fk3_bound.2
    have a1 := mul_le_mul a0 h (abs_nonneg _) (by norm_num)
    have a2 : |arcsec (0.03916 * 1.413496180455 - 0.0553525104)| ≤ 1e-14 := by
      unfold arcsec
      rw [abs_le]
      norm_num at p1 p2 ⊢
      constructor <;> linarith
    refine (abs_add_le _ _).trans ?_
    rw [abs_mul]
    refine (add_le_add a1 a2).trans (by norm_num)
  have hval : geocentricPlanet 2448976.5 "Venus" (arcsec 16.749) (deg 23.439669) (1 / 86400) =
      .ok (eclToEqu ((vsopToFk5 2448976.5 l b).1 + arcsec 16.749) (vsopToFk5 2448976.5 l b).2 (deg 23.439669)) := by
    unfold geocentricPlanet
    rw [e]
    rfl
  refine ⟨(eclToEqu ((vsopToFk5 2448976.5 l b).1 + arcsec 16.749) (vsopToFk5 2448976.5 l b).2 (deg 23.439669)).1,
    (eclToEqu ((vsopToFk5 2448976.5 l b).1 + arcsec 16.749) (vsopToFk5 2448976.5 l b).2 (deg 23.439669)).2, hval, ?_⟩
  have hfk : vsopToFk5 2448976.5 l b = (modpi2 (l + (fk2 + fk3 * (cos L1 + sin L1) * tan b)), b + fk3 * (cos L1 - sin L1)) := by
    unfold vsopToFk5
    simp only [eJ, ← hL1]
  rw [hfk]
  generalize fk2 + fk3 * (cos L1 + sin L1) * tan b = dl at *
  generalize fk3 * (cos L1 - sin L1) = db at *
  obtain ⟨-, -, k, hk⟩ := modpi2_spec (l + dl)
  have b3 : |b + db - angE (-2084823597013)| ≤ 7.71e-9 := by
    unfold angE dToR arcsec at *
    rw [abs_le] at *
    push_cast at *
    norm_num at *
    constructor <;> linarith [hb.1, hb.2, fB.1, fB.2]
  have l3 : |l + dl + arcsec 16.749 - angE (-46918655987329)| ≤ 8.6e-9 := by
    unfold angE dToR arcsec at *
    rw [abs_le] at *
    push_cast at *
    norm_num at *
    constructor <;> linarith [hl.1, hl.2, fL.1, fL.2]
  have cb : 0 < cos (b + db) := by
    refine cos_pos_of_mem_Ioo ?_
    unfold angE dToR at b3
    rw [abs_le] at b3
    push_cast at b3
    norm_num at b3 p1 p2
    constructor <;> linarith [b3.1, b3.2]
  rw [ecl_to_equ_rotates _ _ _ cb]
  rw [direction_congr (l' := l + dl + arcsec 16.749) ⟨k, by rw [hk]; ring⟩ (congr_refl (b + db))]
  have r1 := direction_lip (l + dl + arcsec 16.749) (b + db) (angE (-46918655987329)) (angE (-2084823597013))
  rw [← turnX_isometry (deg 23.439669)] at r1
  rw [show deg 23.439669 = angE 23439669000000 by unfold angE dToR deg; push_cast; ring] at r1 ⊢
  have r2 := direction_lip (angE 316172725000000) (angE (-18888011111111)) (deg (15 * (21 + 4 / 60 + 41.454 / 3600)))
    (deg (-(18 + 53 / 60 + 16.84 / 3600)))
  rw [show angE 316172725000000 - deg (15 * (21 + 4 / 60 + 41.454 / 3600)) = 0 by unfold angE dToR deg; push_cast; ring, abs_zero,
    zero_add] at r2
  have r3 : |angE (-18888011111111) - deg (-(18 + 53 / 60 + 16.84 / 3600))| ≤ 1e-13 := by
    unfold angE dToR deg
    rw [abs_le]
    push_cast
    norm_num at p1 p2 ⊢
    constructor <;> linarith
  have t1 := norm_triangle (turnX (angE 23439669000000) (direction (l + dl + arcsec 16.749) (b + db)))
    (turnX (angE 23439669000000) (direction (angE (-46918655987329)) (angE (-2084823597013))))
    (direction (deg (15 * (21 + 4 / 60 + 41.454 / 3600))) (deg (-(18 + 53 / 60 + 16.84 / 3600))))
  have t2 := norm_triangle (turnX (angE 23439669000000) (direction (angE (-46918655987329)) (angE (-2084823597013))))
    (direction (angE 316172725000000) (angE (-18888011111111)))
    (direction (deg (15 * (21 + 4 / 60 + 41.454 / 3600))) (deg (-(18 + 53 / 60 + 16.84 / 3600))))
  have t3 := vX_final
  generalize (direction (deg (15 * (21 + 4 / 60 + 41.454 / 3600))) (deg (-(18 + 53 / 60 + 16.84 / 3600)))) = V at *
  refine (t1.trans (add_le_add (r1.trans (add_le_add l3 b3)) (t2.trans (add_le_add t3 (r2.trans r3))))).trans ?_
  unfold arcsec
  norm_num at p1 ⊢
  linarith

end Verif

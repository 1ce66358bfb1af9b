import Verif.Lemmas.SunPublished
import Verif.Lemmas.Equinox
import Verif.Props.Geocentric

/-!
# Venus and the Earth at the time of a published example
-/

namespace Verif
open Real

set_option exponentiation.threshold 500
set_option maxRecDepth 100000

/-- Longitude and latitude in units of `1e-12` degree, distance in units of `1e-12`. -/
structure Polar where
  l : ℤ
  b : ℤ
  r : ℤ

/-- The vector with these coordinates. -/
noncomputable def Polar.vec (q : Polar) : V3 := (direction (dToR (q.l / 10 ^ 12)) (dToR (q.b / 10 ^ 12))).scale (q.r / 10 ^ 12)

/-- Twice the products of cosine and sine as sums. -/
theorem cos_cos_sum (l b : ℤ) : cos (dToR (b / 10 ^ 12)) * cos (dToR (l / 10 ^ 12)) =
    (cos (dToR (((l + b : ℤ) : ℝ) / 10 ^ 12)) + cos (dToR (((l - b : ℤ) : ℝ) / 10 ^ 12))) / 2 := by
  rw [show dToR (((l + b : ℤ) : ℝ) / 10 ^ 12) = dToR (l / 10 ^ 12) + dToR (b / 10 ^ 12) by unfold dToR; push_cast; ring,
    show dToR (((l - b : ℤ) : ℝ) / 10 ^ 12) = dToR (l / 10 ^ 12) - dToR (b / 10 ^ 12) by unfold dToR; push_cast; ring,
    cos_add, cos_sub]
  ring

theorem cos_sin_sum (l b : ℤ) : cos (dToR (b / 10 ^ 12)) * sin (dToR (l / 10 ^ 12)) =
    (sin (dToR (((l + b : ℤ) : ℝ) / 10 ^ 12)) + sin (dToR (((l - b : ℤ) : ℝ) / 10 ^ 12))) / 2 := by
  rw [show dToR (((l + b : ℤ) : ℝ) / 10 ^ 12) = dToR (l / 10 ^ 12) + dToR (b / 10 ^ 12) by unfold dToR; push_cast; ring,
    show dToR (((l - b : ℤ) : ℝ) / 10 ^ 12) = dToR (l / 10 ^ 12) - dToR (b / 10 ^ 12) by unfold dToR; push_cast; ring,
    sin_add, sin_sub]
  ring

/-- The waves of the first two components, in units of `1e-20`. -/
def Polar.xy (q : Polar) (s : ℤ) : List Wave := [(s * 50000000 * q.r, q.l + q.b), (s * 50000000 * q.r, q.l - q.b)]
/-- The waves of the third component. -/
def Polar.zz (q : Polar) (s : ℤ) : List Wave := [(s * 100000000 * q.r, q.b)]

theorem Polar.vec_x (q : Polar) (s : ℤ) : waveS cos (q.xy s) = s * 10 ^ 20 * q.vec.x := by
  simp only [Polar.xy, waveS, List.map_cons, List.map_nil, List.sum_cons, List.sum_nil, Polar.vec, V3.scale, direction,
    cos_cos_sum]
  push_cast
  ring

theorem Polar.vec_y (q : Polar) (s : ℤ) : waveS sin (q.xy s) = s * 10 ^ 20 * q.vec.y := by
  simp only [Polar.xy, waveS, List.map_cons, List.map_nil, List.sum_cons, List.sum_nil, Polar.vec, V3.scale, direction,
    cos_sin_sum]
  push_cast
  ring

theorem Polar.vec_z (q : Polar) (s : ℤ) : waveS sin (q.zz s) = s * 10 ^ 20 * q.vec.z := by
  simp only [Polar.zz, waveS, List.map_cons, List.map_nil, List.sum_cons, List.sum_nil, Polar.vec, V3.scale, direction]
  push_cast
  ring

theorem norm_le_of {v : V3} {a : ℝ} (ha : 0 ≤ a) (hx : |v.x| ≤ a) (hy : |v.y| ≤ a) (hz : |v.z| ≤ a) : v.norm ≤ 1.8 * a := by
  unfold V3.norm
  rw [Real.sqrt_le_left (by positivity)]
  have x := sq_le_sq' (abs_le.1 hx).1 (abs_le.1 hx).2
  have y := sq_le_sq' (abs_le.1 hy).1 (abs_le.1 hy).2
  have z := sq_le_sq' (abs_le.1 hz).1 (abs_le.1 hz).2
  have : 0 ≤ a ^ 2 := sq_nonneg a
  norm_num
  linarith

theorem wave20 {x : ℝ} {w : ℕ} {S : ℝ} (e : S = 10 ^ 20 * x) (h : |S / 10 ^ 12 - ((0 : ℤ) : ℝ) / 10 ^ 12| ≤ ((w : ℝ) + 3000) / 10 ^ 12) :
    |x| ≤ ((w : ℝ) + 3000) / 10 ^ 20 := by
  rw [e, Int.cast_zero, zero_div, sub_zero, show 10 ^ 20 * x / 10 ^ 12 = 10 ^ 8 * x by ring, abs_mul,
    abs_of_pos (by norm_num : (0 : ℝ) < 10 ^ 8)] at h
  rw [le_div_iff₀ (by norm_num)] at h ⊢
  linarith

/-- `d` is the difference of `v` and `e`. -/
def polarDiff (w : ℕ) (v e d : Polar) : Prop :=
  nearN 0 w ((v.xy 1 ++ (e.xy (-1) ++ d.xy (-1))).map cosRow) = true ∧ nearN 0 w ((v.xy 1 ++ (e.xy (-1) ++ d.xy (-1))).map sinRow) = true ∧
    nearN 0 w ((v.zz 1 ++ (e.zz (-1) ++ d.zz (-1))).map sinRow) = true

theorem polarDiff_spec {w : ℕ} {v e d : Polar} (h : polarDiff w v e d) :
    ((v.vec.sub e.vec).sub d.vec).norm ≤ 1.8 * (((w : ℝ) + 3000) / 10 ^ 20) := by
  obtain ⟨h1, h2, h3⟩ := h
  refine norm_le_of (by positivity) (wave20 ?_ (cos_near h1)) (wave20 ?_ (sin_near h2)) (wave20 ?_ (sin_near h3))
  · rw [waveS_append, waveS_append, Polar.vec_x, Polar.vec_x, Polar.vec_x]
    simp only [V3.sub]; push_cast; ring
  · rw [waveS_append, waveS_append, Polar.vec_y, Polar.vec_y, Polar.vec_y]
    simp only [V3.sub]; push_cast; ring
  · rw [waveS_append, waveS_append, Polar.vec_z, Polar.vec_z, Polar.vec_z]
    simp only [V3.sub]; push_cast; ring

/-! ### The tables -/

theorem rows_venusL : ∀ s ∈ tail1 (tail0 Data.venusL), ∀ r ∈ s, r.2.1 + r.2.2 ≤ 10 ^ 18 := by decide +kernel
theorem rows_venusB : ∀ s ∈ Data.venusB, ∀ r ∈ s, r.2.1 + r.2.2 ≤ 10 ^ 18 := by decide +kernel
theorem rows_venusR : ∀ s ∈ Data.venusR, ∀ r ∈ s, r.2.1 + r.2.2 ≤ 10 ^ 18 := by decide +kernel

theorem head_venus (t : ℝ) : 10 ^ 11 * pval Data.venusL t = 10 ^ 11 * pval (tail1 (tail0 Data.venusL)) t +
    317614666774 + 1021352943052898 * t := by
  rw [pval_head0 (c := Data.venusL) (a := 317614666774) (by decide +kernel),
    pval_head1 (c := tail0 Data.venusL) (a := 1021352943052898) (by decide +kernel)]
  push_cast
  ring

theorem vX_eL : ptNearN 2 (-7032184150) (tail1 (tail0 Data.earthL)) (-827949862) 5 = true := by decide +kernel
theorem vX_eB : ptNearN 2 (-7032184150) Data.earthB (290434) 5 = true := by decide +kernel
theorem vX_eR : ptNearN 2 (-7032184150) Data.earthR (98382451217) 5 = true := by decide +kernel
theorem vX_vL : ptNearN 2 (-7032184150) (tail1 (tail0 Data.venusL)) (-1213453999) 5 = true := by decide +kernel
theorem vX_vB : ptNearN 2 (-7032184150) Data.venusB (-4574367281) 5 = true := by decide +kernel
theorem vX_vR : ptNearN 2 (-7032184150) Data.venusR (72460236797) 5 = true := by decide +kernel
theorem vY_eL : ptNearN 2 (-7032169747) (tail1 (tail0 Data.earthL)) (-827648495) 5 = true := by decide +kernel
theorem vY_eB : ptNearN 2 (-7032169747) Data.earthB (290195) 5 = true := by decide +kernel
theorem vY_eR : ptNearN 2 (-7032169747) Data.earthR (98382416428) 5 = true := by decide +kernel
theorem vY_vL : ptNearN 2 (-7032169747) (tail1 (tail0 Data.venusL)) (-1213500962) 5 = true := by decide +kernel
theorem vY_vB : ptNearN 2 (-7032169747) Data.venusB (-4573815295) 5 = true := by decide +kernel
theorem vY_vR : ptNearN 2 (-7032169747) Data.venusR (72460167597) 5 = true := by decide +kernel

theorem vX_diff : polarDiff 1000000000 ⟨26105717834065, -2620919391440, 724602367970⟩ ⟨88351646636573, 166406424, 983824512170⟩
    ⟨-46923283413497, -2084838972710, 910883253459⟩ := by
  refine ⟨?_, ?_, ?_⟩ <;> decide +kernel
theorem vY_diff : polarDiff 1000000000 ⟨26114119448501, -2620603126759, 724601675970⟩ ⟨88357004498023, 166269487, 983824164280⟩
    ⟨-46917234310375, -2084670738224, 910845957086⟩ := by
  refine ⟨?_, ?_, ?_⟩ <;> decide +kernel

/-! ### From the tables to the positions -/

theorem pos_near {L B R : ℝ} {n : ℤ} {q : Polar} (hr : 0 ≤ q.r) (hr1 : q.r ≤ 10 ^ 12) {eL eB eR : ℝ}
    (hL : |L - (dToR (q.l / 10 ^ 12) + n * (2 * π))| ≤ eL) (hB : |B - dToR (q.b / 10 ^ 12)| ≤ eB)
    (hR : |R - q.r / 10 ^ 12| ≤ eR) : (((direction L B).scale R).sub q.vec).norm ≤ eR + (eL + eB) := by
  have e : direction L B = direction (L - n * (2 * π)) B := direction_congr ⟨n, by ring⟩ (congr_refl B)
  rw [e]
  generalize hl : L - n * (2 * π) = l
  have hL' : |l - dToR (q.l / 10 ^ 12)| ≤ eL := by
    rw [← hl]
    refine le_of_eq_of_le ?_ hL
    congr 1; ring
  have t := norm_triangle ((direction l B).scale R) ((direction l B).scale (q.r / 10 ^ 12)) q.vec
  have a : (((direction l B).scale R).sub ((direction l B).scale (q.r / 10 ^ 12))).norm ≤ eR := by
    rw [show ((direction l B).scale R).sub ((direction l B).scale (q.r / 10 ^ 12)) =
      (direction l B).scale (R - q.r / 10 ^ 12) by simp only [V3.scale, V3.sub]; congr 1 <;> ring, norm_scale, norm_direction,
      mul_one]
    exact hR
  have b : (((direction l B).scale (q.r / 10 ^ 12)).sub q.vec).norm ≤ eL + eB := by
    unfold Polar.vec
    rw [show ((direction l B).scale ((q.r : ℝ) / 10 ^ 12)).sub ((direction (dToR (q.l / 10 ^ 12)) (dToR (q.b / 10 ^ 12))).scale (q.r / 10 ^ 12)) =
      ((direction l B).sub (direction (dToR (q.l / 10 ^ 12)) (dToR (q.b / 10 ^ 12)))).scale (q.r / 10 ^ 12) by
        simp only [V3.scale, V3.sub]; congr 1 <;> ring, norm_scale]
    have c0 : (0 : ℝ) ≤ q.r := by exact_mod_cast hr
    have c1 : (q.r : ℝ) ≤ 10 ^ 12 := by exact_mod_cast hr1
    rw [abs_of_nonneg (by positivity)]
    have d := (direction_lip l B (dToR (q.l / 10 ^ 12)) (dToR (q.b / 10 ^ 12))).trans (add_le_add hL' hB)
    have d0 := norm_nonneg' ((direction l B).sub (direction (dToR (q.l / 10 ^ 12)) (dToR (q.b / 10 ^ 12))))
    have c2 : (q.r : ℝ) / 10 ^ 12 ≤ 1 := by rw [div_le_one (by norm_num)]; exact c1
    refine (mul_le_mul_of_nonneg_right c2 d0).trans ?_
    rw [one_mul]; exact d
  linarith

theorem norm_sub_sub (a b c d : V3) : ((a.sub b).sub (c.sub d)).norm ≤ (a.sub c).norm + (b.sub d).norm := by
  simp only [← norm_toE, toE_sub]
  rw [show toE a - toE b - (toE c - toE d) = (toE a - toE c) - (toE b - toE d) by abel]
  exact norm_sub_le _ _

/-- The tables of Venus. -/
def venusTables : Tables := ⟨Data.venusL, Data.venusB, Data.venusR⟩

/-- The time of emission, to `4e-8` days. -/
noncomputable def vXt : ℝ := 2451545 + 365250 * (((-7032184150 : ℤ) : ℝ) * 1e-12)
/-- The time of observation, to `1e-7` days. -/
noncomputable def vYt : ℝ := 2451545 + 365250 * (((-7032169747 : ℤ) : ℝ) * 1e-12)

theorem millennia_vX : millennia vXt = ((-7032184150 : ℤ) : ℝ) * 1e-12 := by unfold millennia vXt; ring
theorem millennia_vY : millennia vYt = ((-7032169747 : ℤ) : ℝ) * 1e-12 := by unfold millennia vYt; ring

theorem vX_sep : ((sep venusTables earthTables vXt).sub
    (Polar.vec ⟨-46923283413497, -2084838972710, 910883253459⟩)).norm ≤ 6e-10 := by
  have nL := ptNearN_spec vX_eL rows_earthL (n := 0) (m := 5 * 10 ^ 9) (by decide +kernel) (by decide +kernel)
  have nB := ptNearN_spec vX_eB rows_earthB (n := 0) (m := 10 ^ 7) (by decide +kernel) (by decide +kernel)
  have nR := ptNearN_spec vX_eR rows_earthR (n := 0) (m := 2 * 10 ^ 11) (by decide +kernel) (by decide +kernel)
  have mL := ptNearN_spec vX_vL rows_venusL (n := 0) (m := 5 * 10 ^ 9) (by decide +kernel) (by decide +kernel)
  have mB := ptNearN_spec vX_vB rows_venusB (n := 0) (m := 10 ^ 10) (by decide +kernel) (by decide +kernel)
  have mR := ptNearN_spec vX_vR rows_venusR (n := 0) (m := 2 * 10 ^ 11) (by decide +kernel) (by decide +kernel)
  have hE := head_earth (((-7032184150 : ℤ) : ℝ) * 1e-12)
  have hV := head_venus (((-7032184150 : ℤ) : ℝ) * 1e-12)
  have p1 := pi_gt_d20
  have p2 := pi_lt_d20
  have d := polarDiff_spec vX_diff
  have e1 : (((earthTables.pos vXt)).sub (Polar.vec ⟨88351646636573, 166406424, 983824512170⟩)).norm ≤ 8e-11 + (8e-11 + 8e-11) := by
    unfold Tables.pos
    rw [millennia_vX]
    simp only [poisson_eq_pval, earthTables]
    refine pos_near (n := -7) (by norm_num) (by norm_num) ?_ ?_ ?_
    · generalize pval Data.earthL _ = x at *
      generalize pval (tail1 (tail0 Data.earthL)) _ = y at *
      clear d nB nR mL mB mR hV
      unfold dToR
      rw [abs_le] at *
      push_cast at *
      norm_num at *
      constructor <;> linarith [nL.1, nL.2]
    · generalize pval Data.earthB _ = x at *
      clear d nL nR mL mB mR hV hE
      unfold dToR
      rw [abs_le] at *
      push_cast at *
      norm_num at *
      constructor <;> linarith [nB.1, nB.2]
    · generalize pval Data.earthR _ = x at *
      clear d nL nB mL mB mR hV hE
      rw [abs_le] at *
      push_cast at *
      norm_num at *
      constructor <;> linarith [nR.1, nR.2]
  have e2 : (((venusTables.pos vXt)).sub (Polar.vec ⟨26105717834065, -2620919391440, 724602367970⟩)).norm ≤ 8e-11 + (8e-11 + 8e-11) := by
    unfold Tables.pos
    rw [millennia_vX]
    simp only [poisson_eq_pval, venusTables]
    refine pos_near (n := -11) (by norm_num) (by norm_num) ?_ ?_ ?_
    · generalize pval Data.venusL _ = x at *
      generalize pval (tail1 (tail0 Data.venusL)) _ = y at *
      clear d nL nB nR mB mR hE e1
      unfold dToR
      rw [abs_le] at *
      push_cast at *
      norm_num at *
      constructor <;> linarith [mL.1, mL.2]
    · generalize pval Data.venusB _ = x at *
      clear d nL nB nR mL mR hV hE e1
      unfold dToR
      rw [abs_le] at *
      push_cast at *
      norm_num at *
      constructor <;> linarith [mB.1, mB.2]
    · generalize pval Data.venusR _ = x at *
      clear d nL nB nR mL mB hV hE e1
      rw [abs_le] at *
      push_cast at *
      norm_num at *
      constructor <;> linarith [mR.1, mR.2]
  have t := norm_triangle (sep venusTables earthTables vXt)
    ((Polar.vec ⟨26105717834065, -2620919391440, 724602367970⟩).sub (Polar.vec ⟨88351646636573, 166406424, 983824512170⟩))
    (Polar.vec ⟨-46923283413497, -2084838972710, 910883253459⟩)
  have u := norm_sub_sub (venusTables.pos vXt) (earthTables.pos vXt)
    (Polar.vec ⟨26105717834065, -2620919391440, 724602367970⟩) (Polar.vec ⟨88351646636573, 166406424, 983824512170⟩)
  unfold sep at *
  norm_num at *
  linarith

theorem vY_sep : ((sep venusTables earthTables vYt).sub
    (Polar.vec ⟨-46917234310375, -2084670738224, 910845957086⟩)).norm ≤ 6e-10 := by
  have nL := ptNearN_spec vY_eL rows_earthL (n := 0) (m := 5 * 10 ^ 9) (by decide +kernel) (by decide +kernel)
  have nB := ptNearN_spec vY_eB rows_earthB (n := 0) (m := 10 ^ 7) (by decide +kernel) (by decide +kernel)
  have nR := ptNearN_spec vY_eR rows_earthR (n := 0) (m := 2 * 10 ^ 11) (by decide +kernel) (by decide +kernel)
  have mL := ptNearN_spec vY_vL rows_venusL (n := 0) (m := 5 * 10 ^ 9) (by decide +kernel) (by decide +kernel)
  have mB := ptNearN_spec vY_vB rows_venusB (n := 0) (m := 10 ^ 10) (by decide +kernel) (by decide +kernel)
  have mR := ptNearN_spec vY_vR rows_venusR (n := 0) (m := 2 * 10 ^ 11) (by decide +kernel) (by decide +kernel)
  have hE := head_earth (((-7032169747 : ℤ) : ℝ) * 1e-12)
  have hV := head_venus (((-7032169747 : ℤ) : ℝ) * 1e-12)
  have p1 := pi_gt_d20
  have p2 := pi_lt_d20
  have d := polarDiff_spec vY_diff
  have e1 : (((earthTables.pos vYt)).sub (Polar.vec ⟨88357004498023, 166269487, 983824164280⟩)).norm ≤ 8e-11 + (8e-11 + 8e-11) := by
    unfold Tables.pos
    rw [millennia_vY]
    simp only [poisson_eq_pval, earthTables]
    refine pos_near (n := -7) (by norm_num) (by norm_num) ?_ ?_ ?_
    · generalize pval Data.earthL _ = x at *
      generalize pval (tail1 (tail0 Data.earthL)) _ = y at *
      clear d nB nR mL mB mR hV
      unfold dToR
      rw [abs_le] at *
      push_cast at *
      norm_num at *
      constructor <;> linarith [nL.1, nL.2]
    · generalize pval Data.earthB _ = x at *
      clear d nL nR mL mB mR hV hE
      unfold dToR
      rw [abs_le] at *
      push_cast at *
      norm_num at *
      constructor <;> linarith [nB.1, nB.2]
    · generalize pval Data.earthR _ = x at *
      clear d nL nB mL mB mR hV hE
      rw [abs_le] at *
      push_cast at *
      norm_num at *
      constructor <;> linarith [nR.1, nR.2]
  have e2 : (((venusTables.pos vYt)).sub (Polar.vec ⟨26114119448501, -2620603126759, 724601675970⟩)).norm ≤ 8e-11 + (8e-11 + 8e-11) := by
    unfold Tables.pos
    rw [millennia_vY]
    simp only [poisson_eq_pval, venusTables]
    refine pos_near (n := -11) (by norm_num) (by norm_num) ?_ ?_ ?_
    · generalize pval Data.venusL _ = x at *
      generalize pval (tail1 (tail0 Data.venusL)) _ = y at *
      clear d nL nB nR mB mR hE e1
      unfold dToR
      rw [abs_le] at *
      push_cast at *
      norm_num at *
      constructor <;> linarith [mL.1, mL.2]
    · generalize pval Data.venusB _ = x at *
      clear d nL nB nR mL mR hV hE e1
      unfold dToR
      rw [abs_le] at *
      push_cast at *
      norm_num at *
      constructor <;> linarith [mB.1, mB.2]
    · generalize pval Data.venusR _ = x at *
      clear d nL nB nR mL mB hV hE e1
      rw [abs_le] at *
      push_cast at *
      norm_num at *
      constructor <;> linarith [mR.1, mR.2]
  have t := norm_triangle (sep venusTables earthTables vYt)
    ((Polar.vec ⟨26114119448501, -2620603126759, 724601675970⟩).sub (Polar.vec ⟨88357004498023, 166269487, 983824164280⟩))
    (Polar.vec ⟨-46917234310375, -2084670738224, 910845957086⟩)
  have u := norm_sub_sub (venusTables.pos vYt) (earthTables.pos vYt)
    (Polar.vec ⟨26114119448501, -2620603126759, 724601675970⟩) (Polar.vec ⟨88357004498023, 166269487, 983824164280⟩)
  unfold sep at *
  norm_num at *
  linarith

end Verif
